import Verif.Spec.ParserCopy
import Verif.Props.ArgSetLeft
/-
Lemmas for C135: maps of pointers.
-/
namespace Verif.Args

/-- A map of pointers in which every pointer leads to an object made for that flag (`own` says for which flag each object was made). -/
structure Fit (own : List Str) (m : Map Nat) : Prop where
  sorted : Readers.SortedSet (m.map (·.1))
  owned : ∀ e ∈ m, own[e.2]? = some e.1

theorem Fit.nil (own : List Str) : Fit own [] := ⟨List.Pairwise.nil, by simp⟩

theorem Fit.tail {own : List Str} {e : Str × Nat} {m : Map Nat} (h : Fit own (e :: m)) : Fit own m :=
  ⟨(List.pairwise_cons.1 h.sorted).2, fun x hx => h.owned x (by simp [hx])⟩

theorem Fit.lt {own : List Str} {m : Map Nat} (h : Fit own m) {e : Str × Nat} (he : e ∈ m) : e.2 < own.length := by
  have := h.owned e he
  exact (List.getElem?_eq_some_iff.1 this).1

theorem Fit.get_own {own : List Str} {m : Map Nat} (h : Fit own m) {f : Str} {n : Nat} (hg : m.get f = some n) : own[n]? = some f :=
  h.owned _ (Map.get_mem hg)

theorem Fit.get_lt {own : List Str} {m : Map Nat} (h : Fit own m) {f : Str} {n : Nat} (hg : m.get f = some n) : n < own.length := h.lt (Map.get_mem hg)

theorem Fit.more {own : List Str} {m : Map Nat} (h : Fit own m) (f : Str) : Fit (own ++ [f]) m := by
  refine ⟨h.sorted, fun e he => ?_⟩
  rw [List.getElem?_append_left (h.lt he)]
  exact h.owned e he

theorem Fit.add {own : List Str} {m : Map Nat} (h : Fit own m) (f : Str) : Fit (own ++ [f]) (m.set f own.length) := by
  refine ⟨?_, fun e he => ?_⟩
  · rw [Map.set_keys]; exact Readers.insert_sorted h.sorted
  · rcases Map.mem_set he with rfl | he
    · simp
    · exact (h.more f).owned e he

section
variable {A : Type}

theorem deref_cons {arena : List A} {e : Str × Nat} {m : Map Nat} {a : A} (h : arena[e.2]? = some a) :
    deref arena (e :: m) = (e.1, a) :: deref arena m := by
  simp [deref, h]

theorem Fit.get_deref {own : List Str} {m : Map Nat} (h : Fit own m) {arena : List A} (hl : arena.length = own.length) (f : Str) :
    (deref arena m).get f = (m.get f).bind (arena[·]?) := by
  induction m with
  | nil => rfl
  | cons e m ih =>
    have hlt : e.2 < arena.length := by rw [hl]; exact h.lt (by simp)
    rw [deref_cons (List.getElem?_eq_getElem hlt)]
    unfold Map.get
    by_cases c : f = e.1
    · rw [if_pos c, if_pos c]; simp [hlt]
    · rw [if_neg c, if_neg c]; exact ih h.tail

theorem Fit.keys_deref {own : List Str} {m : Map Nat} (h : Fit own m) {arena : List A} (hl : arena.length = own.length) :
    (deref arena m).map (·.1) = m.map (·.1) := by
  induction m with
  | nil => rfl
  | cons e m ih =>
    have hlt : e.2 < arena.length := by rw [hl]; exact h.lt (by simp)
    rw [deref_cons (List.getElem?_eq_getElem hlt), List.map_cons, List.map_cons, ih h.tail]

theorem deref_congr {arena arena' : List A} {m : Map Nat} (h : ∀ e ∈ m, arena'[e.2]? = arena[e.2]?) : deref arena' m = deref arena m := by
  induction m with
  | nil => rfl
  | cons e m ih =>
    have := ih fun x hx => h x (by simp [hx])
    unfold deref at this ⊢
    rw [List.filterMap_cons, List.filterMap_cons, this, h e (by simp)]

theorem Fit.deref_more {own : List Str} {m : Map Nat} (h : Fit own m) {arena : List A} (hl : arena.length = own.length) (x : A) :
    deref (arena ++ [x]) m = deref arena m :=
  deref_congr fun e he => List.getElem?_append_left (by rw [hl]; exact h.lt he)

theorem Fit.deref_write {own : List Str} {m : Map Nat} (h : Fit own m) {arena : List A} (hl : arena.length = own.length) {f : Str} {i : Nat}
    (hg : m.get f = some i) (x : A) : deref (arena.set i x) m = (deref arena m).set f x := by
  induction m with
  | nil => cases hg
  | cons e m ih =>
    obtain ⟨k, n⟩ := e
    have hlt : n < arena.length := by rw [hl]; exact h.lt (e := (k, n)) (by simp)
    have hlt' : n < (arena.set i x).length := by simpa using hlt
    rw [deref_cons (e := (k, n)) (List.getElem?_eq_getElem hlt), deref_cons (e := (k, n)) (List.getElem?_eq_getElem hlt')]
    unfold Map.get at hg
    have hs := List.pairwise_cons.1 h.sorted
    by_cases c : f = k
    · subst c
      rw [if_pos rfl] at hg
      cases hg
      unfold Map.set
      rw [if_pos rfl]
      congr 1
      · simp
      · refine deref_congr fun e he => ?_
        rw [List.getElem?_set_ne]
        intro hc
        have h1 := h.owned (f, i) (by simp)
        have h2 := h.owned e (by simp [he])
        rw [← hc, h1] at h2
        cases h2
        have := hs.1 _ (List.mem_map_of_mem he)
        rw [Readers.strLt_irrefl] at this
        cases this
    · rw [if_neg c] at hg
      have hm := Map.get_mem hg
      have hni : i ≠ n := by
        intro hc
        have h1 := h.owned (k, n) (by simp)
        have h2 := h.owned (f, i) (by simp [hm])
        rw [hc] at h2
        simp only [h1, Option.some.injEq] at h2
        exact c h2.symm
      have hlf : ¬ strLt f k = true := by
        intro hc
        have := Readers.strLt_trans (hs.1 f (List.mem_map.2 ⟨_, hm, rfl⟩)) hc
        rw [Readers.strLt_irrefl] at this
        cases this
      conv => rhs; unfold Map.set
      rw [if_neg c, if_neg hlf, ih h.tail hg]
      congr 2
      simp [hni]

theorem Fit.deref_alloc {own : List Str} {m : Map Nat} (h : Fit own m) {arena : List A} (hl : arena.length = own.length) (f : Str) (x : A) :
    deref (arena ++ [x]) (m.set f arena.length) = (deref arena m).set f x := by
  induction m with
  | nil => simp [Map.set, deref]
  | cons e m ih =>
    obtain ⟨k, n⟩ := e
    have hlt : n < arena.length := by rw [hl]; exact h.lt (e := (k, n)) (by simp)
    have hlt' : n < (arena ++ [x]).length := by simp; omega
    have ht : deref (arena ++ [x]) m = deref arena m := h.tail.deref_more hl x
    rw [deref_cons (e := (k, n)) (List.getElem?_eq_getElem hlt)]
    unfold Map.set
    by_cases c : f = k
    · rw [if_pos c, if_pos c, deref_cons (e := (f, arena.length)) (a := x) (by simp), ht]
    · rw [if_neg c, if_neg c]
      by_cases c' : strLt f k = true
      · rw [if_pos c', if_pos c', deref_cons (e := (f, arena.length)) (a := x) (by simp), deref_cons (e := (k, n)) (List.getElem?_eq_getElem hlt'), ht]
        simp [hlt]
      · rw [if_neg c', if_neg c', deref_cons (e := (k, n)) (List.getElem?_eq_getElem hlt'), ih h.tail]
        simp [hlt]

/-- Two sorted maps with the same entries are equal. -/
theorem map_ext {m m' : Map A} (h : Readers.SortedSet (m.map (·.1))) (h' : Readers.SortedSet (m'.map (·.1))) (e : ∀ f, m.get f = m'.get f) : m = m' := by
  induction m generalizing m' with
  | nil =>
    cases m' with
    | nil => rfl
    | cons x m' => have := e x.1; simp [Map.get] at this
  | cons x m ih =>
    cases m' with
    | nil => have := e x.1; simp [Map.get] at this
    | cons y m' =>
      obtain ⟨k, v⟩ := x
      obtain ⟨k', v'⟩ := y
      have hs := List.pairwise_cons.1 h
      have hs' := List.pairwise_cons.1 h'
      have hk : k = k' := by
        by_contra c
        have h1 := e k
        have h2 := e k'
        simp only [Map.get, if_true, if_neg c, if_neg (Ne.symm c)] at h1 h2
        have l1 := hs'.1 _ (List.mem_map.2 ⟨_, Map.get_mem h1.symm, rfl⟩)
        have l2 := hs.1 _ (List.mem_map.2 ⟨_, Map.get_mem h2, rfl⟩)
        have := Readers.strLt_trans l1 l2
        rw [Readers.strLt_irrefl] at this
        cases this
      subst hk
      have hv := e k
      simp only [Map.get, if_true, Option.some.injEq] at hv
      subst hv
      congr 1
      refine ih hs.2 hs'.2 fun f => ?_
      by_cases c : f = k
      · subst c
        have n1 : ∀ {m : Map A}, (∀ b ∈ m.map (·.1), strLt f b = true) → m.get f = none := by
          intro m hm
          cases hg : m.get f with
          | none => rfl
          | some a =>
            have := hm _ (List.mem_map.2 ⟨_, Map.get_mem hg, rfl⟩)
            rw [Readers.strLt_irrefl] at this
            cases this
        rw [n1 hs.1, n1 hs'.1]
      · have := e f
        simpa only [Map.get, if_neg c] using this

end
end Verif.Args
