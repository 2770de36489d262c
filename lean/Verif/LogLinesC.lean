import Verif.LogLinesB
import Verif.PopulationLemmas
import Verif.CountLemmas
import Verif.Props.Fuel
/-
Gross orbital populations, line by line.
-/
namespace Verif.LogLines
open Strings Log Readers
open Pun (rowLine NoLine strip)

variable {α : Type} [Mul α] [Num α] [Zero α]

/-! ### the shape of the container -/

/-- The keys and labels after functions were added. -/
def addShape (s : Shape) (fs : List ((Nat × Str) × Str)) : Shape := fs.foldl (fun s f => shapeSet s ((f.1.1 : Int), f.1.2) f.2) s

theorem addShape_append (s : Shape) (a b : List ((Nat × Str) × Str)) : addShape s (a ++ b) = addShape (addShape s a) b := List.foldl_append

theorem pairLt_trans {a b c : Int × Str} (h1 : pairLt a b = true) (h2 : pairLt b c = true) : pairLt a c = true := by
  unfold pairLt at *
  simp only [Bool.or_eq_true, Bool.and_eq_true, decide_eq_true_eq] at *
  rcases h1 with h1 | ⟨h1, g1⟩
  · rcases h2 with h2 | ⟨h2, -⟩
    · exact .inl (by omega)
    · exact .inl (by omega)
  · rcases h2 with h2 | ⟨h2, g2⟩
    · exact .inl (by omega)
    · exact .inr ⟨by omega, strLt_trans g1 g2⟩

theorem pairLt_total {a b : Int × Str} (h : a ≠ b) (h1 : ¬ pairLt a b = true) : pairLt b a = true := by
  unfold pairLt at *
  simp only [Bool.or_eq_true, Bool.and_eq_true, decide_eq_true_eq] at *
  by_cases hlt : b.1 < a.1
  · exact .inl hlt
  · have he : b.1 = a.1 := by
      have : ¬ a.1 < b.1 := fun h => h1 (.inl h)
      omega
    refine .inr ⟨he, strLt_total (fun e => h (Prod.ext he.symm e)) ?_⟩
    cases hs : strLt a.2 b.2 with
    | false => rfl
    | true => exact absurd (.inr ⟨he.symm, hs⟩) h1

theorem mem_shapeSet (s : Shape) (key : Int × Str) (label : Str) (k : Int × Str) (l : Str) :
    (∃ ls, (k, ls) ∈ shapeSet s key label ∧ l ∈ ls) ↔ (k = key ∧ l = label) ∨ ∃ ls, (k, ls) ∈ s ∧ l ∈ ls := by
  induction s with
  | nil =>
    simp only [shapeSet, List.mem_singleton, Prod.mk.injEq, List.not_mem_nil, false_and, exists_false, or_false]
    constructor
    · rintro ⟨ls, ⟨rfl, rfl⟩, h⟩
      exact ⟨rfl, by simpa using h⟩
    · rintro ⟨rfl, rfl⟩
      exact ⟨[l], ⟨rfl, rfl⟩, by simp⟩
  | cons e s ih =>
    obtain ⟨k', m⟩ := e
    rw [shapeSet]
    split
    · rename_i hk
      subst hk
      constructor
      · rintro ⟨ls, h1, h2⟩
        rcases List.mem_cons.1 h1 with h1 | h1
        · cases h1
          rcases mem_strSetInsert.1 h2 with rfl | h2
          · exact .inl ⟨rfl, rfl⟩
          · exact .inr ⟨m, by simp, h2⟩
        · exact .inr ⟨ls, by simp [h1], h2⟩
      · rintro (⟨rfl, rfl⟩ | ⟨ls, h1, h2⟩)
        · exact ⟨_, List.mem_cons_self .., mem_strSetInsert.2 (.inl rfl)⟩
        · rcases List.mem_cons.1 h1 with h1 | h1
          · cases h1
            exact ⟨_, List.mem_cons_self .., mem_strSetInsert.2 (.inr h2)⟩
          · exact ⟨ls, by simp [h1], h2⟩
    · split
      · constructor
        · rintro ⟨ls, h1, h2⟩
          rcases List.mem_cons.1 h1 with h1 | h1
          · cases h1
            exact .inl ⟨rfl, by simpa using h2⟩
          · exact .inr ⟨ls, h1, h2⟩
        · rintro (⟨rfl, rfl⟩ | ⟨ls, h1, h2⟩)
          · exact ⟨_, List.mem_cons_self .., by simp⟩
          · exact ⟨ls, List.mem_cons_of_mem _ h1, h2⟩
      · constructor
        · rintro ⟨ls, h1, h2⟩
          rcases List.mem_cons.1 h1 with h1 | h1
          · cases h1
            exact .inr ⟨m, by simp, h2⟩
          · rcases ih.1 ⟨ls, h1, h2⟩ with h | ⟨ls', h1, h2⟩
            · exact .inl h
            · exact .inr ⟨ls', by simp [h1], h2⟩
        · rintro (h | ⟨ls, h1, h2⟩)
          · obtain ⟨ls', h1, h2⟩ := ih.2 (.inl h)
            exact ⟨ls', List.mem_cons_of_mem _ h1, h2⟩
          · rcases List.mem_cons.1 h1 with h1 | h1
            · cases h1
              exact ⟨m, by simp, h2⟩
            · obtain ⟨ls', h1, h2⟩ := ih.2 (.inr ⟨ls, h1, h2⟩)
              exact ⟨ls', List.mem_cons_of_mem _ h1, h2⟩

/-- Sorted, with sets of labels that are not empty. -/
def Tidy (s : Shape) : Prop := s.Pairwise (fun x y => pairLt x.1 y.1 = true) ∧ ∀ x ∈ s, 0 ≤ x.1.1 ∧ x.2 ≠ [] ∧ SortedSet x.2

theorem shapeSet_key {s : Shape} {key : Int × Str} {label : Str} {x : (Int × Str) × List Str} (h : x ∈ shapeSet s key label) : x.1 = key ∨ ∃ y ∈ s, x.1 = y.1 := by
  induction s with
  | nil =>
    simp only [shapeSet, List.mem_singleton] at h
    exact .inl (by rw [h])
  | cons e s ih =>
    obtain ⟨k', m⟩ := e
    rw [shapeSet] at h
    split at h
    · rcases List.mem_cons.1 h with h | h
      · exact .inr ⟨(k', m), by simp, by rw [h]⟩
      · exact .inr ⟨x, by simp [h], rfl⟩
    · split at h
      · rcases List.mem_cons.1 h with h | h
        · exact .inl (by rw [h])
        · exact .inr ⟨x, h, rfl⟩
      · rcases List.mem_cons.1 h with h | h
        · exact .inr ⟨(k', m), by simp, by rw [h]⟩
        · rcases ih h with h | ⟨y, h1, h2⟩
          · exact .inl h
          · exact .inr ⟨y, by simp [h1], h2⟩

theorem strSetInsert_ne (k : Str) (s : List Str) : strSetInsert k s ≠ [] := by
  intro h
  have : k ∈ strSetInsert k s := mem_strSetInsert.2 (.inl rfl)
  rw [h] at this
  cases this

theorem Tidy.set {s : Shape} (h : Tidy s) {key : Int × Str} (hk : 0 ≤ key.1) (label : Str) : Tidy (shapeSet s key label) := by
  have hone : SortedSet [label] := List.pairwise_singleton _ _
  induction s with
  | nil =>
    refine ⟨List.pairwise_singleton _ _, fun x hx => ?_⟩
    simp only [shapeSet, List.mem_singleton] at hx
    subst hx
    exact ⟨hk, by simp, hone⟩
  | cons e s ih =>
    obtain ⟨k', m⟩ := e
    obtain ⟨h1, h2⟩ := h
    rw [List.pairwise_cons] at h1
    obtain ⟨i1, i2⟩ := ih ⟨h1.2, fun x hx => h2 x (by simp [hx])⟩
    obtain ⟨g1, g2, g3⟩ := h2 (k', m) (by simp)
    rw [shapeSet]
    split
    · rename_i he
      subst he
      refine ⟨List.pairwise_cons.2 ⟨h1.1, h1.2⟩, fun x hx => ?_⟩
      rcases List.mem_cons.1 hx with rfl | hx
      · exact ⟨hk, strSetInsert_ne _ _, insert_sorted g3⟩
      · exact h2 x (by simp [hx])
    · rename_i hne
      split
      · rename_i hlt
        refine ⟨List.pairwise_cons.2 ⟨fun y hy => ?_, List.pairwise_cons.2 h1⟩, fun x hx => ?_⟩
        · rcases List.mem_cons.1 hy with rfl | hy
          · exact hlt
          · exact pairLt_trans hlt (h1.1 y hy)
        · rcases List.mem_cons.1 hx with rfl | hx
          · exact ⟨hk, by simp, hone⟩
          · exact h2 x hx
      · rename_i hlt
        refine ⟨List.pairwise_cons.2 ⟨fun y hy => ?_, i1⟩, fun x hx => ?_⟩
        · rcases shapeSet_key hy with hy | ⟨z, hz, hy⟩
          · rw [hy]; exact pairLt_total hne hlt
          · rw [hy]; exact h1.1 z hz
        · rcases List.mem_cons.1 hx with rfl | hx
          · exact ⟨g1, g2, g3⟩
          · exact i2 x hx

theorem addShape_tidy {s : Shape} (h : Tidy s) (fs : List ((Nat × Str) × Str)) : Tidy (addShape s fs) := by
  induction fs generalizing s with
  | nil => exact h
  | cons f fs ih => exact ih (h.set (by simp only []; omega) _)

theorem mem_addShape (s : Shape) (fs : List ((Nat × Str) × Str)) (k : Int × Str) (l : Str) :
    (∃ ls, (k, ls) ∈ addShape s fs ∧ l ∈ ls) ↔ (∃ f ∈ fs, k = ((f.1.1 : Int), f.1.2) ∧ l = f.2) ∨ ∃ ls, (k, ls) ∈ s ∧ l ∈ ls := by
  induction fs generalizing s with
  | nil => simp [addShape]
  | cons f fs ih =>
    have := ih (shapeSet s ((f.1.1 : Int), f.1.2) f.2)
    rw [mem_shapeSet] at this
    rw [show addShape s (f :: fs) = addShape (shapeSet s ((f.1.1 : Int), f.1.2) f.2) fs from rfl, this]
    constructor
    · rintro (⟨g, h1, h2⟩ | h | h)
      · exact .inl ⟨g, by simp [h1], h2⟩
      · exact .inl ⟨f, by simp, h⟩
      · exact .inr h
    · rintro (⟨g, h1, h2⟩ | h)
      · rcases List.mem_cons.1 h1 with rfl | h1
        · exact .inr (.inl h2)
        · exact .inl ⟨g, h1, h2⟩
      · exact .inr (.inr h)

/-- What is counted. -/
theorem addShape_counts (fs : List ((Nat × Str) × Str)) : Counts fs ((addShape [] fs).map (fun e => (e.2.length : Int))) := by
  have ht : Tidy (addShape [] fs) := addShape_tidy ⟨List.Pairwise.nil, fun x hx => by cases hx⟩ fs
  refine ⟨(addShape [] fs).map (fun x => ((x.1.1.toNat, x.1.2), x.2)), ?_, ?_, ?_, ?_⟩
  · rw [List.pairwise_map]
    refine ht.1.imp_of_mem ?_
    intro a b ha hb hab
    have h1 := (ht.2 a ha).1
    have h2 := (ht.2 b hb).1
    unfold pairLt at hab
    simp only [Bool.or_eq_true, Bool.and_eq_true, decide_eq_true_eq] at hab
    simp only []
    rcases hab with hab | ⟨hab, hs⟩
    · exact .inl (by omega)
    · exact .inr ⟨by omega, hs⟩
  · intro x hx
    obtain ⟨y, hy, rfl⟩ := List.mem_map.1 hx
    exact ⟨(ht.2 y hy).2.1, sorted_nodup (ht.2 y hy).2.2⟩
  · intro key label
    have := mem_addShape [] fs ((key.1 : Int), key.2) label
    constructor
    · intro h
      obtain ⟨ls, h1, h2⟩ := this.2 (.inl ⟨_, h, rfl, rfl⟩)
      refine ⟨ls, List.mem_map.2 ⟨_, h1, ?_⟩, h2⟩
      simp
    · rintro ⟨ls, h1, h2⟩
      obtain ⟨y, hy, e⟩ := List.mem_map.1 h1
      have h0 := (ht.2 y hy).1
      have e1 : key = (y.1.1.toNat, y.1.2) := (Prod.mk.inj e).1.symm
      have e2 : ls = y.2 := (Prod.mk.inj e).2.symm
      subst e1 e2
      have hy' : ((((y.1.1.toNat : Nat) : Int), y.1.2), y.2) ∈ addShape [] fs := by
        rw [show ((y.1.1.toNat : Nat) : Int) = y.1.1 by omega]
        exact hy
      rcases this.1 ⟨_, hy', h2⟩ with ⟨f, h3, h4, h5⟩ | ⟨ls, h3, -⟩
      · have h6 := (Prod.mk.inj h4).1
        have h7 := (Prod.mk.inj h4).2
        have : f = ((y.1.1.toNat, y.1.2), label) := by
          refine Prod.ext (Prod.ext ?_ h7.symm) h5.symm
          simp only [] at h6 ⊢
          omega
        rw [← this]
        exact h3
      · cases h3
  · rw [List.map_map]
    rfl

/-! ### one line -/

theorem elementOn_eq (l : Str) : (words l)[2]?.getD ((words l)[1]?.getD []) = elementOn l := by
  unfold elementOn
  rcases words l with _ | ⟨a, _ | ⟨b, _ | ⟨c, ws⟩⟩⟩ <;> rfl

theorem nextMark_eq (mark l : Str) : trimmed ((words l)[2]?.getD ((words l)[1]?.getD ((words l)[0]?.getD mark))) = nextMark mark l := by
  rw [trimmed_eq]
  unfold nextMark
  rcases words l with _ | ⟨a, _ | ⟨b, _ | ⟨c, ws⟩⟩⟩ <;> rfl

theorem found_end {l : Str} : foundSubStrInStr l aoEnd = true ↔ IsEnd l := found_contains

section
variable {t : Str} {i : Nat} {fids : Nat → Readers.Stream}
  (hg : ∀ j, getline (fids j) (rowLine t (i + 1) j) = (rowLine t (i + 1) (j + 1), fids (j + 1)))
include hg

open Classical in
theorem aoRows_step (atom : Int) (elem : Str) (fuel : Nat) (r : FR (LogData α)) {j : Nat} (hr : r.fid = fids j) {mark : Str} (hm : ¬ Letters mark) (label : Str) :
    aoRows atom elem (fuel + 1) r (popLine t i j) mark label = numbers α 2 (popLine t i j) >>= fun vals =>
      if IsEnd (popLine t i (j + 1)) then .ok (⟨fids (j + 1), r.pos, { r.data with orb := r.data.orb.set (atom, elem) (nextLabel label (popLine t i j)) vals }⟩, popLine t i (j + 1), true)
      else aoRows atom elem fuel ⟨fids (j + 1), r.pos, { r.data with orb := r.data.orb.set (atom, elem) (nextLabel label (popLine t i j)) vals }⟩ (popLine t i (j + 1))
        (nextMark mark (popLine t i (j + 1))) (nextLabel label (popLine t i j)) := by
  rw [aoRows, if_neg (by rw [alphabetical_iff]; exact hm)]
  have hg' : getline r.fid (popLine t i j) = (popLine t i (j + 1), fids (j + 1)) := by rw [hr]; exact hg j
  have t1 := (taken_first (popLine t i j) []).2
  have t2 := t1.next label
  simp only [hg']
  rw [t2.1, t2.2.rest, foldlM_mapM, bind_assoc]
  refine congrArg _ (funext fun vals => ?_)
  simp only [Res.ok_bind, List.nil_append]
  have u1 := taken_first (popLine t i (j + 1)) mark
  have u2 := u1.2.next (extract (openText (popLine t i (j + 1))) mark).1
  have u3 := u2.2.next (extract (extract (openText (popLine t i (j + 1))) mark).2 (extract (openText (popLine t i (j + 1))) mark).1).1
  rw [u3.1, u2.1, u1.1, nextMark_eq]
  by_cases he : IsEnd (popLine t i (j + 1))
  · rw [if_pos (found_end.2 he), if_pos he]
    rfl
  · rw [if_neg (fun h => he (found_end.1 h)), if_neg he]
    rfl

/-- Further functions of an atom. -/
theorem aoRows_says {atom : Nat} {elem label mark : Str} {j : Nat} {ls : List Str} {k : Nat} (h : Further α t i label mark j ls k) :
    ∀ (r : FR (LogData α)), r.fid = fids j → ∃ orb flag, (flag = true → IsEnd (popLine t i k)) ∧
      shape orb = addShape (shape r.data.orb) (fnsOf atom elem ls) ∧ ∀ fuel, ls.length + 1 ≤ fuel → aoRows (atom : Int) elem fuel r (popLine t i j) mark label =
        .ok (⟨fids k, r.pos, { r.data with orb := orb }⟩, popLine t i k, flag) := by
  induction h with
  | @none label mark j hm =>
    intro r hr
    refine ⟨r.data.orb, false, fun h => (by cases h), rfl, fun fuel hf => ?_⟩
    obtain ⟨m, rfl⟩ : ∃ m, fuel = m + 1 := ⟨fuel - 1, by simp at hf; omega⟩
    rw [aoRows, if_pos ((alphabetical_iff _).2 hm), ← hr]
  | @last label mark j vals hm hv he =>
    intro r hr
    refine ⟨_, true, fun _ => he, shape_set r.data.orb ((atom : Int), elem) (nextLabel label (popLine t i j)) vals, fun fuel hf => ?_⟩
    obtain ⟨m, rfl⟩ : ∃ m, fuel = m + 1 := ⟨fuel - 1, by simp at hf; omega⟩
    rw [aoRows_step hg _ _ _ r hr hm, hv, Res.ok_bind, if_pos he]
  | @more label mark j ls k vals hm hv he _ ih =>
    intro r hr
    obtain ⟨orb, flag, h1, h2, h3⟩ := ih ⟨fids (j + 1), r.pos, { r.data with orb := r.data.orb.set ((atom : Int), elem) (nextLabel label (popLine t i j)) vals }⟩ rfl
    refine ⟨orb, flag, h1, ?_, fun fuel hf => ?_⟩
    · rw [h2]
      simp only []
      rw [shape_set]
      rfl
    · obtain ⟨m, rfl⟩ : ∃ m, fuel = m + 1 := ⟨fuel - 1, by simp at hf; omega⟩
      rw [aoRows_step hg _ _ _ r hr hm, hv, Res.ok_bind, if_neg he, h3 m (by simp at hf; omega)]

theorem aoRows_bad {label mark : Str} {j : Nat} {e : Exn} (h : BadFurther α t i label mark j e) : ∃ N, ∀ (atom : Int) (elem : Str) (r : FR (LogData α)), r.fid = fids j →
    ∀ fuel, N ≤ fuel → aoRows atom elem fuel r (popLine t i j) mark label = .throw e := by
  induction h with
  | @here label mark j e hm hv =>
    refine ⟨1, fun atom elem r hr fuel hf => ?_⟩
    obtain ⟨m, rfl⟩ : ∃ m, fuel = m + 1 := ⟨fuel - 1, by omega⟩
    rw [aoRows_step hg _ _ _ r hr hm, hv]
    rfl
  | @later label mark j e vals hm hv he _ ih =>
    obtain ⟨N, ih⟩ := ih
    refine ⟨N + 1, fun atom elem r hr fuel hf => ?_⟩
    obtain ⟨m, rfl⟩ : ∃ m, fuel = m + 1 := ⟨fuel - 1, by omega⟩
    rw [aoRows_step hg _ _ _ r hr hm, hv, Res.ok_bind, if_neg he, ih _ _ _ rfl m (by omega)]

theorem aoRows_open {label mark : Str} {j n : Nat} (h : OpenFurther α t i label mark j n) : ∀ (atom : Int) (elem : Str) (r : FR (LogData α)), r.fid = fids j →
    aoRows atom elem n r (popLine t i j) mark label = .diverge := by
  induction h with
  | zero => intro atom elem r hr; rfl
  | @succ label mark j n vals hm hv he _ ih =>
    intro atom elem r hr
    rw [aoRows_step hg _ _ _ r hr hm, hv, Res.ok_bind, if_neg he, ih _ _ _ rfl]

/-! ### atoms -/

omit [Mul α] [Num α] [Zero α] hg in
theorem vecAt_short {l : Str} {k : Nat} (h : l.length ≤ k) : vecAt l (k : Int) = .throw .outOfRange := vecAt_none (List.getElem?_eq_none h)

theorem aoAtoms_step (atom : Int) (fuel : Nat) (r : FR (LogData α)) {j : Nat} (hr : r.fid = fids j) :
    aoAtoms (fuel + 1) atom r (popLine t i j) = numbers α 4 (popLine t i j) >>= fun vals => vecAt (popLine t i (j + 1)) 9 >>= fun c9 => vecAt (popLine t i (j + 1)) 10 >>= fun c10 =>
      aoRows atom (elementOn (popLine t i j)) fuel ⟨fids (j + 1), r.pos, { r.data with orb := r.data.orb.set (atom, elementOn (popLine t i j)) (firstLabel (popLine t i j)) vals }⟩
        (popLine t i (j + 1)) (trimmed [c9, c10]) (firstLabel (popLine t i j)) >>= fun x =>
      if (if foundSubStrInStr x.2.1 aoEnd then true else x.2.2) then .ok x.1 else aoAtoms fuel (atom + 1) x.1 x.2.1 := by
  rw [aoAtoms]
  have hg' : getline r.fid (popLine t i j) = (popLine t i (j + 1), fids (j + 1)) := by rw [hr]; exact hg j
  have t1 := (taken_first (popLine t i j) []).2
  have t2 := t1.next []
  have t3 := t2.2.next (extract (extract (openText (popLine t i j)) []).2 []).1
  have t4 := t3.2.next []
  simp only [hg']
  rw [t4.2.rest, foldlM_mapM, bind_assoc, t4.1, t3.1, t2.1, elementOn_eq]
  refine congrArg _ (funext fun vals => ?_)
  simp only [Res.ok_bind, List.nil_append]
  rfl

/-- After the first function of an atom. -/
theorem aoAtoms_first {j : Nat} (h : FirstFn α t i j) (atom : Int) (r : FR (LogData α)) (hr : r.fid = fids j) :
    ∃ vals, ∀ fuel, aoAtoms (fuel + 1) atom r (popLine t i j) =
      aoRows atom (elementOn (popLine t i j)) fuel ⟨fids (j + 1), r.pos, { r.data with orb := r.data.orb.set (atom, elementOn (popLine t i j)) (firstLabel (popLine t i j)) vals }⟩
        (popLine t i (j + 1)) (columns (popLine t i (j + 1))) (firstLabel (popLine t i j)) >>= fun x =>
      if (if foundSubStrInStr x.2.1 aoEnd then true else x.2.2) then .ok x.1 else aoAtoms fuel (atom + 1) x.1 x.2.1 := by
  obtain ⟨⟨vals, hv⟩, hl⟩ := h
  refine ⟨vals, fun fuel => ?_⟩
  have h9 : (popLine t i (j + 1))[9]? = some ((popLine t i (j + 1))[9]'(by omega)) := List.getElem?_eq_getElem _
  have h10 : (popLine t i (j + 1))[10]? = some ((popLine t i (j + 1))[10]'(by omega)) := List.getElem?_eq_getElem _
  rw [aoAtoms_step hg atom fuel r hr, hv, Res.ok_bind, show (9 : Int) = ((9 : Nat) : Int) from rfl, vecAt_some h9, Res.ok_bind,
    show (10 : Int) = ((10 : Nat) : Int) from rfl, vecAt_some h10, Res.ok_bind, trimmed_eq]
  have : [(popLine t i (j + 1))[9]'(by omega), (popLine t i (j + 1))[10]'(by omega)] = ((popLine t i (j + 1)).drop 9).take 2 := by
    rw [List.drop_eq_getElem_cons (by omega), List.take_succ_cons, List.drop_eq_getElem_cons (by omega), List.take_succ_cons, List.take_zero]
  rw [this]
  rfl

theorem aoAtoms_atom {j : Nat} {elem : Str} {ls : List Str} {k : Nat} (h : AtomAt α t i j elem ls k) (atom : Nat) (r : FR (LogData α)) (hr : r.fid = fids j) :
    ∃ orb, shape orb = addShape (shape r.data.orb) (fnsOf atom elem ls) ∧ ∀ fuel, ls.length ≤ fuel →
      (IsEnd (popLine t i k) → aoAtoms (fuel + 1) (atom : Int) r (popLine t i j) = .ok ⟨fids k, r.pos, { r.data with orb := orb }⟩) ∧
      (¬ IsEnd (popLine t i k) → aoAtoms (fuel + 1) (atom : Int) r (popLine t i j) =
        aoAtoms fuel ((atom + 1 : Nat) : Int) ⟨fids k, r.pos, { r.data with orb := orb }⟩ (popLine t i k)) := by
  obtain ⟨h1, rfl, ls, rfl, h2⟩ := h
  obtain ⟨vals, hv⟩ := aoAtoms_first hg h1 (atom : Int) r hr
  obtain ⟨orb, flag, g1, g2, g3⟩ := aoRows_says hg (atom := atom) (elem := elementOn (popLine t i j)) h2
    ⟨fids (j + 1), r.pos, { r.data with orb := r.data.orb.set ((atom : Int), elementOn (popLine t i j)) (firstLabel (popLine t i j)) vals }⟩ rfl
  refine ⟨orb, ?_, fun fuel hf => ?_⟩
  · rw [g2]
    simp only []
    rw [shape_set]
    rfl
  · have := hv fuel
    rw [g3 fuel (by simpa using hf), Res.ok_bind] at this
    simp only [] at this
    by_cases he : IsEnd (popLine t i k)
    · refine ⟨fun _ => ?_, fun h => absurd he h⟩
      rw [this, if_pos (found_end.2 he), if_pos rfl]
    · refine ⟨fun h => absurd h he, fun _ => ?_⟩
      rw [this, if_neg (fun h => he (found_end.1 h)), if_neg (fun h => he (g1 h))]
      rfl

theorem aoAtoms_says {a j : Nat} {fs : List ((Nat × Str) × Str)} {e : Nat} (h : Atoms α t i a j fs e) : ∃ N, ∀ (r : FR (LogData α)), r.fid = fids j →
    ∃ orb, shape orb = addShape (shape r.data.orb) fs ∧ ∀ fuel, N ≤ fuel → aoAtoms fuel (a : Int) r (popLine t i j) = .ok ⟨fids e, r.pos, { r.data with orb := orb }⟩ := by
  induction h with
  | @last a j elem ls k ha he =>
    refine ⟨ls.length + 1, fun r hr => ?_⟩
    obtain ⟨orb, h1, h2⟩ := aoAtoms_atom hg ha a r hr
    refine ⟨orb, h1, fun fuel hf => ?_⟩
    obtain ⟨m, rfl⟩ : ∃ m, fuel = m + 1 := ⟨fuel - 1, by omega⟩
    exact (h2 m (by omega)).1 he
  | @more a j elem ls k fs e ha he _ ih =>
    obtain ⟨N, ih⟩ := ih
    refine ⟨max N ls.length + 1, fun r hr => ?_⟩
    obtain ⟨orb, h1, h2⟩ := aoAtoms_atom hg ha a r hr
    obtain ⟨orb', h3, h4⟩ := ih ⟨fids k, r.pos, { r.data with orb := orb }⟩ rfl
    refine ⟨orb', by rw [h3, addShape_append, ← h1], fun fuel hf => ?_⟩
    obtain ⟨m, rfl⟩ : ∃ m, fuel = m + 1 := ⟨fuel - 1, by omega⟩
    rw [(h2 m (by omega)).2 he, h4 m (by omega)]

theorem aoAtoms_bad {j : Nat} {e : Exn} (h : BadAtoms α t i j e) : ∃ N, ∀ (a : Nat) (r : FR (LogData α)), r.fid = fids j →
    ∀ fuel, N ≤ fuel → aoAtoms fuel (a : Int) r (popLine t i j) = .throw e := by
  induction h with
  | @first j e hv =>
    refine ⟨1, fun a r hr fuel hf => ?_⟩
    obtain ⟨m, rfl⟩ : ∃ m, fuel = m + 1 := ⟨fuel - 1, by omega⟩
    rw [aoAtoms_step hg _ _ r hr, hv]
    rfl
  | @short j vals hv hl =>
    refine ⟨1, fun a r hr fuel hf => ?_⟩
    obtain ⟨m, rfl⟩ : ∃ m, fuel = m + 1 := ⟨fuel - 1, by omega⟩
    rw [aoAtoms_step hg _ _ r hr, hv, Res.ok_bind]
    by_cases h9 : (popLine t i (j + 1)).length ≤ 9
    · rw [show (9 : Int) = ((9 : Nat) : Int) from rfl, vecAt_short h9]
      rfl
    · have h9' : (popLine t i (j + 1))[9]? = some ((popLine t i (j + 1))[9]'(by omega)) := List.getElem?_eq_getElem _
      rw [show (9 : Int) = ((9 : Nat) : Int) from rfl, vecAt_some h9', Res.ok_bind, show (10 : Int) = ((10 : Nat) : Int) from rfl, vecAt_short hl]
      rfl
  | @further j e h1 hb =>
    obtain ⟨N, hN⟩ := aoRows_bad hg hb
    refine ⟨N + 1, fun a r hr fuel hf => ?_⟩
    obtain ⟨m, rfl⟩ : ∃ m, fuel = m + 1 := ⟨fuel - 1, by omega⟩
    obtain ⟨vals, hv⟩ := aoAtoms_first hg h1 (a : Int) r hr
    rw [hv, hN _ _ _ rfl m (by omega)]
    rfl
  | @later j elem ls k e ha he _ ih =>
    obtain ⟨N, ih⟩ := ih
    refine ⟨max N ls.length + 1, fun a r hr fuel hf => ?_⟩
    obtain ⟨orb, h1, h2⟩ := aoAtoms_atom hg ha a r hr
    obtain ⟨m, rfl⟩ : ∃ m, fuel = m + 1 := ⟨fuel - 1, by omega⟩
    rw [(h2 m (by omega)).2 he, ih (a + 1) _ rfl m (by omega)]

/-- If the rest of the table takes for ever, the whole does. -/
theorem aoAtoms_diverge {j : Nat} {elem : Str} {ls : List Str} {k : Nat} (ha : AtomAt α t i j elem ls k) (he : ¬ IsEnd (popLine t i k)) {n : Nat}
    (ih : ∀ (a : Nat) (r : FR (LogData α)), r.fid = fids k → aoAtoms n (a : Int) r (popLine t i k) = .diverge) (a : Nat) (r : FR (LogData α)) (hr : r.fid = fids j) :
    aoAtoms (n + 1) (a : Int) r (popLine t i j) = .diverge := by
  obtain ⟨h1, rfl, ls, rfl, h2⟩ := ha
  obtain ⟨vals, hv⟩ := aoAtoms_first hg h1 (a : Int) r hr
  obtain ⟨orb, flag, g1, g2, g3⟩ := aoRows_says hg (atom := a) (elem := elementOn (popLine t i j)) h2
    ⟨fids (j + 1), r.pos, { r.data with orb := r.data.orb.set ((a : Int), elementOn (popLine t i j)) (firstLabel (popLine t i j)) vals }⟩ rfl
  have hm := aoRows_mono (a : Int) (elementOn (popLine t i j)) n (max n (ls.length + 1)) (by omega)
    ⟨fids (j + 1), r.pos, { r.data with orb := r.data.orb.set ((a : Int), elementOn (popLine t i j)) (firstLabel (popLine t i j)) vals }⟩ (popLine t i (j + 1))
    (columns (popLine t i (j + 1))) (firstLabel (popLine t i j))
  rw [g3 (max n (ls.length + 1)) (by omega)] at hm
  rw [hv n]
  by_cases hd : aoRows (a : Int) (elementOn (popLine t i j)) n
      ⟨fids (j + 1), r.pos, { r.data with orb := r.data.orb.set ((a : Int), elementOn (popLine t i j)) (firstLabel (popLine t i j)) vals }⟩ (popLine t i (j + 1))
      (columns (popLine t i (j + 1))) (firstLabel (popLine t i j)) = .diverge
  · rw [hd]
    rfl
  · rw [← hm hd, Res.ok_bind]
    simp only []
    rw [if_neg (fun h => he (found_end.1 h)), if_neg (fun h => he (g1 h))]
    exact ih (a + 1) _ rfl

theorem aoAtoms_open {j n : Nat} (h : OpenAtoms α t i j n) : ∀ (a : Nat) (r : FR (LogData α)), r.fid = fids j → aoAtoms n (a : Int) r (popLine t i j) = .diverge := by
  induction h with
  | zero => intro a r hr; rfl
  | @succ j elem ls k n ha he _ ih => exact aoAtoms_diverge hg ha he ih

theorem aoAtoms_endless {j : Nat} (h : EndlessAtoms α t i j) : ∀ (fuel a : Nat) (r : FR (LogData α)), r.fid = fids j → aoAtoms fuel (a : Int) r (popLine t i j) = .diverge := by
  induction h with
  | @further j h1 ho =>
    intro fuel a r hr
    cases fuel with
    | zero => rfl
    | succ fuel =>
      obtain ⟨vals, hv⟩ := aoAtoms_first hg h1 (a : Int) r hr
      rw [hv, aoRows_open hg (ho fuel) _ _ _ rfl]
      rfl
  | @atoms j ho => exact fun fuel a r hr => aoAtoms_open hg (ho fuel) a r hr
  | @later j elem ls k ha he _ ih =>
    intro fuel a r hr
    cases fuel with
    | zero => rfl
    | succ fuel => exact aoAtoms_diverge hg ha he (ih fuel) a r hr

end

theorem aoReader_eq {t : Str} {i : Nat} {fids : Nat → Readers.Stream} (r : FR (LogData α)) (h0 : getline r.fid [] = (rowLine t (i + 1) 0, fids 0))
    (hg : ∀ j, getline (fids j) (rowLine t (i + 1) j) = (rowLine t (i + 1) (j + 1), fids (j + 1))) (fuel : Nat) :
    aoReader fuel r = aoAtoms fuel ((1 : Nat) : Int) ⟨fids 1, r.pos, r.data⟩ (popLine t i 1) := by
  unfold aoReader
  simp only [h0, hg]
  rfl

theorem aoReader_says {t : Str} (hfit : AllFit t) {i : Nat} {fs : List ((Nat × Str) × Str)} {e : Nat} (h : Atoms α t i 1 1 fs e) (r : FR (LogData α))
    (hr : At t (i + 1) r.fid) : ∃ N fid' orb, At t (i + e + 2) fid' ∧ shape orb = addShape (shape r.data.orb) fs ∧
      ∀ fuel, N ≤ fuel → aoReader fuel r = .ok ⟨fid', r.pos, { r.data with orb := orb }⟩ := by
  obtain ⟨fids, e0, e1, e2, -⟩ := row_feed t (i + 1) r.fid hr hfit
  obtain ⟨N, hN⟩ := aoAtoms_says e1 h
  obtain ⟨orb, h1, h2⟩ := hN ⟨fids 1, r.pos, r.data⟩ rfl
  refine ⟨N, fids e, orb, by have := e2 e; rwa [show i + 1 + e + 1 = i + e + 2 by omega] at this, h1, fun fuel hf => ?_⟩
  rw [aoReader_eq r e0 e1, h2 fuel hf]

theorem aoReader_bad {t : Str} (hfit : AllFit t) {i : Nat} {e : Exn} (h : BadAtoms α t i 1 e) (r : FR (LogData α)) (hr : At t (i + 1) r.fid) :
    ∃ N, ∀ fuel, N ≤ fuel → aoReader fuel r = .throw e := by
  obtain ⟨fids, e0, e1, e2, -⟩ := row_feed t (i + 1) r.fid hr hfit
  obtain ⟨N, hN⟩ := aoAtoms_bad e1 h
  exact ⟨N, fun fuel hf => by rw [aoReader_eq r e0 e1, hN 1 _ rfl fuel hf]⟩

theorem aoReader_endless {t : Str} (hfit : AllFit t) {i : Nat} (h : EndlessAtoms α t i 1) (r : FR (LogData α)) (hr : At t (i + 1) r.fid) (fuel : Nat) :
    aoReader fuel r = .diverge := by
  obtain ⟨fids, e0, e1, e2, -⟩ := row_feed t (i + 1) r.fid hr hfit
  rw [aoReader_eq r e0 e1, aoAtoms_endless e1 h fuel 1 _ rfl]

/-! ### nothing else can be -/

omit [Mul α] [Zero α] in
theorem stods_cases (ws : List Str) : OkOrThrow (ws.mapM Num.stod : Res (List α)) := mapM_cases _ Num.stod_cases ws

omit [Zero α] in
theorem numbers_cases (k : Nat) (l : Str) : OkOrThrow (numbers α k l) := stods_cases _

theorem further_trichotomy (t : Str) (i : Nat) (label mark : Str) (j : Nat) :
    (∃ ls k, j ≤ k ∧ Further α t i label mark j ls k) ∨ (∃ e, BadFurther α t i label mark j e) ∨ ∀ n, OpenFurther α t i label mark j n := by
  have key : ∀ n label mark j, (∃ ls k, j ≤ k ∧ Further α t i label mark j ls k) ∨ (∃ e, BadFurther α t i label mark j e) ∨ OpenFurther α t i label mark j n := by
    intro n
    induction n with
    | zero => exact fun _ _ _ => .inr (.inr .zero)
    | succ n ih =>
      intro label mark j
      by_cases hm : Letters mark
      · exact .inl ⟨_, _, by omega, .none hm⟩
      rcases numbers_cases (α := α) 2 (popLine t i j) with ⟨vals, hv⟩ | ⟨e, he⟩
      · by_cases hend : IsEnd (popLine t i (j + 1))
        · exact .inl ⟨_, _, by omega, .last hm hv hend⟩
        · rcases ih (nextLabel label (popLine t i j)) (nextMark mark (popLine t i (j + 1))) (j + 1) with ⟨ls, k, hk, h⟩ | ⟨e, h⟩ | h
          · exact .inl ⟨_, _, by omega, .more hm hv hend h⟩
          · exact .inr (.inl ⟨_, .later hm hv hend h⟩)
          · exact .inr (.inr (.succ hm hv hend h))
      · exact .inr (.inl ⟨_, .here hm he⟩)
  by_cases h1 : ∃ ls k, j ≤ k ∧ Further α t i label mark j ls k
  · exact .inl h1
  by_cases h2 : ∃ e, BadFurther α t i label mark j e
  · exact .inr (.inl h2)
  refine .inr (.inr fun n => ?_)
  rcases key n label mark j with h | h | h
  · exact absurd h h1
  · exact absurd h h2
  · exact h

theorem atom_trichotomy (t : Str) (i j : Nat) :
    (∃ elem ls k, j < k ∧ AtomAt α t i j elem ls k) ∨ (∃ e, BadAtoms α t i j e) ∨ EndlessAtoms α t i j := by
  rcases numbers_cases (α := α) 4 (popLine t i j) with ⟨vals, hv⟩ | ⟨e, he⟩
  · by_cases hl : 10 < (popLine t i (j + 1)).length
    · rcases further_trichotomy (α := α) t i (firstLabel (popLine t i j)) (columns (popLine t i (j + 1))) (j + 1) with ⟨ls, k, hk, h⟩ | ⟨e, h⟩ | h
      · exact .inl ⟨_, _, k, by omega, ⟨⟨vals, hv⟩, hl⟩, rfl, ls, rfl, h⟩
      · exact .inr (.inl ⟨e, .further ⟨⟨vals, hv⟩, hl⟩ h⟩)
      · exact .inr (.inr (.further ⟨⟨vals, hv⟩, hl⟩ h))
    · exact .inr (.inl ⟨_, .short hv (by omega)⟩)
  · exact .inr (.inl ⟨_, .first he⟩)

theorem atoms_trichotomy (t : Str) (i : Nat) (j : Nat) :
    (∀ a, ∃ fs e, j < e ∧ Atoms α t i a j fs e) ∨ (∃ e, BadAtoms α t i j e) ∨ EndlessAtoms α t i j := by
  have key : ∀ n j, (∀ a, ∃ fs e, j < e ∧ Atoms α t i a j fs e) ∨ (∃ e, BadAtoms α t i j e) ∨ EndlessAtoms α t i j ∨ OpenAtoms α t i j n := by
    intro n
    induction n with
    | zero => exact fun _ => .inr (.inr (.inr .zero))
    | succ n ih =>
      intro j
      rcases atom_trichotomy (α := α) t i j with ⟨elem, ls, k, hk, ha⟩ | h | h
      · by_cases he : IsEnd (popLine t i k)
        · exact .inl fun a => ⟨_, _, hk, .last ha he⟩
        · rcases ih k with h | ⟨e, h⟩ | h | h
          · refine .inl fun a => ?_
            obtain ⟨fs, e, h1, h2⟩ := h (a + 1)
            exact ⟨_, e, by omega, .more ha he h2⟩
          · exact .inr (.inl ⟨e, .later ha he h⟩)
          · exact .inr (.inr (.inl (.later ha he h)))
          · exact .inr (.inr (.inr (.succ ha he h)))
      · exact .inr (.inl h)
      · exact .inr (.inr (.inl h))
  by_cases h1 : ∀ a, ∃ fs e, j < e ∧ Atoms α t i a j fs e
  · exact .inl h1
  by_cases h2 : ∃ e, BadAtoms α t i j e
  · exact .inr (.inl h2)
  by_cases h3 : EndlessAtoms α t i j
  · exact .inr (.inr h3)
  refine .inr (.inr (.atoms fun n => ?_))
  rcases key n j with h | h | h | h
  · exact absurd h h1
  · exact absurd h h2
  · exact absurd h h3
  · exact h

theorem population_trichotomy (t : Str) (i : Nat) :
    (∃ f e, i < e ∧ Table (α := α) t i .population f e) ∨ (∃ x, BadTable α t i .population x) ∨ EndlessTable α t i .population := by
  rcases atoms_trichotomy (α := α) t i 1 with h | ⟨e, h⟩ | h
  · obtain ⟨fs, e, h1, h2⟩ := h 1
    exact .inl ⟨_, _, by omega, .population h2⟩
  · exact .inr (.inl ⟨_, .population h⟩)
  · exact .inr (.inr (.population h))

end Verif.LogLines
