import Verif.QC
/-
The swap schedule: what the sweeps compute, and what executing the refreshed swaps does.
-/
namespace Verif.QC
variable {β : Type}

theorem sweep_length {was is : Int} {l l' : List (Int × Int)} (h : sweep was is l = .ok l') : l'.length = l.length := by
  induction l generalizing l' with
  | nil => cases h; rfl
  | cons q l ih =>
    unfold sweep at h
    split at h
    · split at h
      · cases h
      · obtain ⟨x, hx, h⟩ := Res.bind_eq_ok.1 h
        cases h; simp [ih hx]
    · obtain ⟨x, hx, h⟩ := Res.bind_eq_ok.1 h
      cases h; simp [ih hx]

/-- Redirect an entry that wants `w` to `i`. -/
def repl (w i : Int) (p : Int × Int) : Int × Int := (p.1, if p.2 = w then i else p.2)

@[simp] theorem repl_fst (w i : Int) (p : Int × Int) : (repl w i p).1 = p.1 := rfl

theorem sweep_ok {w i : Int} {l : List (Int × Int)} (h : i ≠ w ∨ ∀ p ∈ l, p.2 ≠ w) :
    sweep w i l = .ok (l.map (repl w i)) := by
  induction l with
  | nil => rfl
  | cons p l ih =>
    have ih := ih (h.imp_right fun h q hq => h q (by simp [hq]))
    unfold sweep
    split
    · rename_i hp
      have hne : i ≠ w := h.elim id (fun h => absurd hp (h p (by simp)))
      rw [if_neg hne, ih]
      simp [repl, hp]
    · rename_i hp
      rw [ih]
      simp [repl, hp]

theorem sweep_diverge {w : Int} {l : List (Int × Int)} (h : ∃ p ∈ l, p.2 = w) : sweep w w l = .diverge := by
  induction l with
  | nil => simp at h
  | cons p l ih =>
    unfold sweep
    split
    · simp
    · rename_i hp
      obtain ⟨q, hq, e⟩ := h
      rcases List.mem_cons.1 hq with rfl | hq
      · exact absurd e hp
      · rw [ih ⟨q, hq, e⟩]; rfl

/-! ### the literal loop computes `sweep` -/

theorem findIdx?_drop_none {w : Int} {l : List (Int × Int)} (h : ∀ p ∈ l, p.2 ≠ w) :
    l.findIdx? (fun p => decide (w = p.2)) = none := by
  rw [List.findIdx?_eq_none_iff]
  intro p hp
  have := h p hp
  simp; omega

/-- With `pre` already swept, the literal loop reaches what `sweep` computes, given enough iterations. -/
theorem sweepFuel_ok {w i : Int} (hne : i ≠ w) (l : List (Int × Int)) :
    ∃ n, ∀ fuel, n ≤ fuel → sweepFuel w i fuel l 0 = sweep w i l := by
  have key : ∀ (k : Nat) (pre post : List (Int × Int)), (post.filter (fun p => p.2 = w)).length ≤ k →
      ∀ fuel, k + 1 ≤ fuel → sweepFuel w i fuel (pre ++ post) pre.length = .ok (pre ++ post.map (repl w i)) := by
    intro k
    induction k with
    | zero =>
      intro pre post hk fuel hf
      have hnone : ∀ p ∈ post, p.2 ≠ w := by
        intro p hp e
        have : (post.filter (fun p => p.2 = w)) = [] := by
          apply List.eq_nil_of_length_eq_zero; omega
        have := List.filter_eq_nil_iff.1 this p hp
        simp at this; exact this e
      have hmap : post.map (repl w i) = post := by
        conv => rhs; rw [← List.map_id post]
        apply List.map_congr_left
        intro p hp
        simp [repl, hnone p hp]
      obtain ⟨f, rfl⟩ : ∃ f, fuel = f + 1 := ⟨fuel - 1, by omega⟩
      unfold sweepFuel
      split
      · rw [List.drop_left, findIdx?_drop_none hnone, hmap]
      · rw [hmap]
    | succ k ih =>
      intro pre post hk fuel hf
      obtain ⟨f, rfl⟩ : ∃ f, fuel = f + 1 := ⟨fuel - 1, by omega⟩
      unfold sweepFuel
      cases hfind : post.findIdx? (fun p => decide (w = p.2)) with
      | none =>
        have hnone : ∀ p ∈ post, p.2 ≠ w := by
          intro p hp e
          have := List.findIdx?_eq_none_iff.1 hfind p hp
          simp [e] at this
        have hmap : post.map (repl w i) = post := by
          conv => rhs; rw [← List.map_id post]
          apply List.map_congr_left
          intro p hp
          simp [repl, hnone p hp]
        split
        · rw [List.drop_left, hfind, hmap]
        · rw [hmap]
      | some j =>
        obtain ⟨hj, hpj, hbefore⟩ := List.findIdx?_eq_some_iff_getElem.1 hfind
        rw [if_pos (by simp; omega), List.drop_left, hfind]
        simp only
        have hsplit : post = post.take j ++ post[j] :: post.drop (j+1) := by simp
        have hpw : post[j].2 = w := by simp at hpj; omega
        have hA : (post.take j).map (repl w i) = post.take j := by
          conv => rhs; rw [← List.map_id (post.take j)]
          apply List.map_congr_left
          intro p hp
          obtain ⟨n, hn, rfl⟩ := List.mem_iff_getElem.1 hp
          have := hbefore n (by simp at hn; omega)
          simp only [List.getElem_take] at *
          simp at this
          have hn' : (post[n]'(by simp at hn; omega)).2 ≠ w := fun e => this e.symm
          simp [repl, hn']
        have hAf : ((post.take j).filter (fun p => p.2 = w)) = [] := by
          rw [List.filter_eq_nil_iff]
          intro p hp
          obtain ⟨n, hn, rfl⟩ := List.mem_iff_getElem.1 hp
          have := hbefore n (by simp at hn; omega)
          simp only [List.getElem_take] at *
          simp at this
          simp; omega
        have hset : (pre ++ post).set (pre.length + j) (((pre ++ post).getD (pre.length + j) (0, 0)).1, i) =
            (pre ++ post.take j) ++ (post[j].1, i) :: post.drop (j+1) := by
          rw [List.set_append_right _ _ (by omega), List.append_assoc]
          congr 1
          have : (pre ++ post).getD (pre.length + j) (0, 0) = post[j] := by
            rw [List.getD_eq_getElem?_getD, List.getElem?_append_right (by omega)]
            simp [hj]
          rw [this, Nat.add_sub_cancel_left]
          rw [List.set_eq_take_append_cons_drop, if_pos hj]
        rw [hset]
        have hlen : pre.length + j = (pre ++ post.take j).length := by simp; omega
        rw [hlen, ih (pre ++ post.take j) ((post[j].1, i) :: post.drop (j+1)) ?_ f (by omega)]
        · congr 1
          conv => rhs; rw [hsplit]
          rw [List.map_append, hA, List.map_cons, List.map_cons]
          have h1 : repl w i (post[j].1, i) = (post[j].1, i) := by simp [repl, hne]
          have h2 : repl w i post[j] = (post[j].1, i) := by simp [repl, hpw]
          rw [h1, h2, List.append_assoc]
        · have : (post.filter (fun p => p.2 = w)).length = ((post.drop (j+1)).filter (fun p => p.2 = w)).length + 1 := by
            conv => lhs; rw [hsplit]
            rw [List.filter_append, hAf, List.nil_append, List.filter_cons]
            simp [hpw]
          rw [List.filter_cons]
          simp only [hne, decide_false]
          simp only [Bool.false_eq_true, if_false]
          omega
  refine ⟨(l.filter (fun p => p.2 = w)).length + 1, fun fuel hf => ?_⟩
  have := key _ [] l (Nat.le_refl _) fuel hf
  rw [sweep_ok (Or.inl hne)]
  simpa using this

theorem sweepFuel_self_ok {w : Int} {l : List (Int × Int)} (h : ∀ p ∈ l, p.2 ≠ w) (fuel : Nat) :
    sweepFuel w w (fuel + 1) l 0 = sweep w w l := by
  rw [sweep_ok (Or.inr h)]
  have hmap : l.map (repl w w) = l := by
    conv => rhs; rw [← List.map_id l]
    apply List.map_congr_left
    intro p hp
    simp [repl, h p hp]
  unfold sweepFuel
  rw [hmap, List.drop_zero, findIdx?_drop_none h]
  simp

/-- When the sweep replaces a position by itself and some entry names it, the literal loop never ends. -/
theorem sweepFuel_diverge {w : Int} {l : List (Int × Int)} (h : ∃ p ∈ l, p.2 = w) (fuel : Nat) :
    sweepFuel w w fuel l 0 = .diverge := by
  have key : ∀ (fuel : Nat) (l : List (Int × Int)) (pos : Nat), (∃ p ∈ l.drop pos, p.2 = w) →
      sweepFuel w w fuel l pos = .diverge := by
    intro fuel
    induction fuel with
    | zero => intros; rfl
    | succ n ih =>
      rintro l pos ⟨p, hp, e⟩
      unfold sweepFuel
      have hlt : pos < l.length := by
        have := List.length_pos_of_mem hp
        simp at this; omega
      rw [if_pos hlt]
      cases hf : (l.drop pos).findIdx? (fun p => decide (w = p.2)) with
      | none =>
        have := List.findIdx?_eq_none_iff.1 hf p hp
        simp [e] at this
      | some k =>
        obtain ⟨hk, hpk, _⟩ := List.findIdx?_eq_some_iff_getElem.1 hf
        simp only
        have hk' : pos + k < l.length := by simp at hk; omega
        refine ih _ _ ⟨((l.getD (pos + k) (0, 0)).1, w), ?_, rfl⟩
        rw [List.mem_iff_getElem]
        refine ⟨0, by simp; omega, ?_⟩
        simp
  exact key fuel l 0 (by simpa using h)

/-! ### the refresh loops -/

theorem refreshB_nil (A : List (Int × Int)) : refreshB [] A = .ok ([], A) := rfl

theorem refreshB_cons (p : Int × Int) (B A : List (Int × Int)) :
    refreshB (p :: B) A = (do
      let B ← sweep p.1 p.2 B
      let A ← sweep p.1 p.2 A
      let (B, A) ← refreshB B A
      .ok (p :: B, A)) := by
  unfold refreshB
  simp only [List.length_cons, refreshBN]
  cases h : sweep p.1 p.2 B with
  | ok B1 => simp only [Res.ok_bind, sweep_length h]
  | _ => rfl

theorem refreshTail_nil (g : Int × Int → Bool) : refreshTail g [] = .ok [] := rfl

theorem refreshTail_cons (g : Int × Int → Bool) (p : Int × Int) (A : List (Int × Int)) :
    refreshTail g (p :: A) = (do
      let A ← (if g p then sweep p.1 p.2 A else .ok A)
      let A ← refreshTail g A
      .ok (p :: A)) := by
  unfold refreshTail
  simp only [List.length_cons, refreshTailN]
  cases h : (if g p then sweep p.1 p.2 A else .ok A) with
  | ok B1 =>
    have : B1.length = A.length := by
      split at h
      · exact sweep_length h
      · cases h; rfl
    simp only [Res.ok_bind, this]
  | _ => rfl

/-- The second components are pairwise different. -/
def Distinct (L : List (Int × Int)) : Prop := (L.map Prod.snd).Nodup

theorem Distinct.head {p : Int × Int} {L : List (Int × Int)} (h : Distinct (p :: L)) : ∀ q ∈ L, q.2 ≠ p.2 := by
  intro q hq e
  have := (List.nodup_cons.1 h).1
  exact this (List.mem_map.2 ⟨q, hq, e⟩)

theorem Distinct.tail {p : Int × Int} {L : List (Int × Int)} (h : Distinct (p :: L)) : Distinct L :=
  (List.nodup_cons.1 h).2

theorem Distinct.repl {p : Int × Int} {L : List (Int × Int)} (h : Distinct (p :: L)) :
    Distinct (L.map (repl p.1 p.2)) := by
  have hh := h.head
  have ht := h.tail
  unfold Distinct at *
  rw [List.map_map]
  rw [List.nodup_iff_pairwise_ne, List.pairwise_map] at ht ⊢
  refine List.Pairwise.imp_of_mem ?_ ht
  intro a b ha hb hab
  have h1 := hh a ha
  have h2 := hh b hb
  simp only [Function.comp, QC.repl]
  split <;> split <;> omega

theorem sweep_distinct {p : Int × Int} {L : List (Int × Int)} (h : ∀ q ∈ L, q.2 ≠ p.2) :
    sweep p.1 p.2 L = .ok (L.map (repl p.1 p.2)) := by
  apply sweep_ok
  by_cases hp : p.2 = p.1
  · right; intro q hq; rw [← hp]; exact h q hq
  · left; exact hp

theorem map_repl_self {p : Int × Int} (h : p.1 = p.2) (L : List (Int × Int)) : L.map (repl p.1 p.2) = L := by
  conv => rhs; rw [← List.map_id L]
  apply List.map_congr_left
  intro q _
  simp only [repl, h, id]
  split
  · rename_i e; rw [← e]
  · rfl

/-- The schedule as a pure function: process the entries one after the other, redirecting the later ones. -/
def scheduleN : Nat → List (Int × Int) → List (Int × Int)
  | 0, _ => []
  | _ + 1, [] => []
  | n + 1, p :: A => p :: scheduleN n (A.map (repl p.1 p.2))

def schedule (L : List (Int × Int)) : List (Int × Int) := scheduleN L.length L

theorem schedule_nil : schedule [] = [] := rfl

theorem schedule_cons (p : Int × Int) (A : List (Int × Int)) :
    schedule (p :: A) = p :: schedule (A.map (repl p.1 p.2)) := by
  simp [schedule, scheduleN]

theorem schedule_append_length (n : Nat) : ∀ (B A : List (Int × Int)), B.length = n →
    ∃ B' A', schedule (B ++ A) = B' ++ A' ∧ B'.length = B.length := by
  induction n with
  | zero => intro B A h; exact ⟨[], schedule A, by rw [List.eq_nil_of_length_eq_zero h]; rfl, by simpa using h.symm⟩
  | succ n ih =>
    intro B A h
    cases B with
    | nil => simp at h
    | cons p B =>
      obtain ⟨B', A', e, hl⟩ := ih (B.map (repl p.1 p.2)) (A.map (repl p.1 p.2)) (by simpa using h)
      refine ⟨p :: B', A', ?_, by simpa using hl⟩
      rw [List.cons_append, schedule_cons, List.map_append, e, List.cons_append]

theorem refreshTail_distinct (g : Int × Int → Bool) (hg : ∀ p, p.1 ≠ p.2 → g p = true) :
    ∀ (n : Nat) (L : List (Int × Int)), L.length = n → Distinct L → refreshTail g L = .ok (schedule L) := by
  intro n
  induction n with
  | zero => intro L h _; rw [List.eq_nil_of_length_eq_zero h]; rfl
  | succ n ih =>
    intro L h hd
    cases L with
    | nil => simp at h
    | cons p A =>
      rw [refreshTail_cons, schedule_cons]
      have : (if g p = true then sweep p.1 p.2 A else .ok A) = .ok (A.map (repl p.1 p.2)) := by
        split
        · exact sweep_distinct hd.head
        · rename_i hgp
          have : p.1 = p.2 := by
            rcases Classical.em (p.1 = p.2) with e | e
            · exact e
            · exact absurd (hg p e) hgp
          rw [map_repl_self this]
      rw [this]
      simp only [Res.ok_bind]
      rw [ih _ (by simpa using h) hd.repl]
      rfl

/-- For pairwise different sources both overloads compute `schedule`. -/
theorem refreshSwapOrder1_ok {L : List (Int × Int)} (h : Distinct L) : refreshSwapOrder1 L = .ok (schedule L) :=
  refreshTail_distinct _ (fun _ _ => rfl) _ L rfl h

theorem refreshSwapOrder2_ok {B A : List (Int × Int)} (h : Distinct (B ++ A)) :
    ∃ B' A', refreshSwapOrder2 B A = .ok (B', A') ∧ B' ++ A' = schedule (B ++ A) := by
  have key : ∀ (n : Nat) (B A : List (Int × Int)), B.length = n → Distinct (B ++ A) →
      ∃ B' A', refreshB B A = .ok (B', A') ∧ Distinct A' ∧ B' ++ schedule A' = schedule (B ++ A) := by
    intro n
    induction n with
    | zero =>
      intro B A h hd
      rw [List.eq_nil_of_length_eq_zero h] at *
      exact ⟨[], A, rfl, hd, rfl⟩
    | succ n ih =>
      intro B A h hd
      cases B with
      | nil => simp at h
      | cons p B =>
        rw [List.cons_append] at hd
        have hh := hd.head
        have hr := hd.repl
        rw [List.map_append] at hr
        obtain ⟨B', A', e, hd', hs⟩ := ih (B.map (repl p.1 p.2)) (A.map (repl p.1 p.2)) (by simpa using h) hr
        refine ⟨p :: B', A', ?_, hd', ?_⟩
        · rw [refreshB_cons, sweep_distinct (fun q hq => hh q (List.mem_append_left _ hq)),
            sweep_distinct (fun q hq => hh q (List.mem_append_right _ hq))]
          simp only [Res.ok_bind, e]
        · rw [List.cons_append, hs, List.cons_append, schedule_cons, List.map_append]
  obtain ⟨B', A', e, hd, hs⟩ := key _ B A rfl h
  refine ⟨B', schedule A', ?_, hs⟩
  unfold refreshSwapOrder2
  rw [e]
  simp only [Res.ok_bind]
  rw [refreshTail_distinct _ (fun p hp => by simpa using hp) _ A' rfl hd]
  rfl

/-! ### executing the swaps -/

theorem swapEntry_ok {x : List β} {p : Int × Int} (h1 : 1 ≤ p.1 ∧ p.1 ≤ x.length) (h2 : 1 ≤ p.2 ∧ p.2 ≤ x.length) :
    ∃ y, swapEntry x p = .ok y ∧ y.length = x.length ∧ y.Perm x ∧
      ∀ g : Int, 1 ≤ g → y[(g-1).toNat]? =
        if g = p.1 then x[(p.2-1).toNat]? else if g = p.2 then x[(p.1-1).toNat]? else x[(g-1).toNat]? := by
  unfold swapEntry
  by_cases hp : p.1 = p.2
  · refine ⟨x, by rw [if_neg (by simpa using hp)], rfl, List.Perm.refl x, ?_⟩
    intro g _
    split
    · subst_vars; rw [hp]
    · split
      · subst_vars; rw [hp]
      · rfl
  · have l1 : (p.1 - 1).toNat < x.length := by omega
    have l2 : (p.2 - 1).toNat < x.length := by omega
    refine ⟨(x.set (p.1-1).toNat x[(p.2-1).toNat]).set (p.2-1).toNat x[(p.1-1).toNat], ?_, by simp, ?_, ?_⟩
    · rw [if_pos hp]
      unfold listGet listSet
      rw [if_neg (by omega), if_neg (by omega), List.getElem?_eq_getElem l1, List.getElem?_eq_getElem l2]
      simp only [Res.ok_bind]
      rw [if_pos (by omega)]
      simp only [Res.ok_bind, List.length_set]
      rw [if_pos (by omega)]
    · exact List.set_set_perm l1 l2
    · intro g hg
      simp only [List.getElem?_set, List.length_set]
      by_cases e1 : g = p.1
      · subst e1
        rw [if_neg (by omega), if_pos rfl, if_pos rfl, if_pos l1, List.getElem?_eq_getElem l2]
      · rw [if_neg e1]
        by_cases e2 : g = p.2
        · subst e2
          rw [if_pos rfl, if_pos l2, if_pos rfl, List.getElem?_eq_getElem l1]
        · rw [if_neg e2, if_neg (by omega), if_neg (by omega)]

/-- Executing the refreshed swaps moves to every wanted position what was at the requested source. -/
theorem schedule_exec : ∀ (n : Nat) (L : List (Int × Int)), L.length = n → ∀ (x : List β),
    (L.map Prod.fst).Nodup → Distinct L → (∀ p ∈ L, 1 ≤ p.1 ∧ p.1 ≤ x.length) → (∀ p ∈ L, 1 ≤ p.2 ∧ p.2 ≤ x.length) →
    ∃ y, updateSwapLists1 (schedule L) x = .ok y ∧ y.length = x.length ∧ y.Perm x ∧
      (∀ p ∈ L, y[(p.1-1).toNat]? = x[(p.2-1).toNat]?) ∧
      (∀ g : Int, 1 ≤ g → (∀ p ∈ L, p.1 ≠ g ∧ p.2 ≠ g) → y[(g-1).toNat]? = x[(g-1).toNat]?) := by
  intro n
  induction n with
  | zero =>
    intro L h x _ _ _ _
    rw [List.eq_nil_of_length_eq_zero h]
    exact ⟨x, rfl, rfl, List.Perm.refl x, by simp, by simp⟩
  | succ n ih =>
    intro L h x hf hd r1 r2
    cases L with
    | nil => simp at h
    | cons p A =>
      obtain ⟨x', e1, hl, hp, hx⟩ := swapEntry_ok (r1 p (by simp)) (r2 p (by simp))
      have hh := hd.head
      have hnd := List.nodup_cons.1 hf
      have hfA : ∀ q ∈ A, q.1 ≠ p.1 := fun q hq e => hnd.1 (List.mem_map.2 ⟨q, hq, e⟩)
      obtain ⟨y, e2, hyl, hyp, hy1, hy2⟩ := ih (A.map (repl p.1 p.2)) (by simpa using h) x'
        (by rw [List.map_map]; exact hnd.2) hd.repl
        (by
          intro q hq
          obtain ⟨q, hq', rfl⟩ := List.mem_map.1 hq
          rw [hl]; exact r1 q (by simp [hq']))
        (by
          intro q hq
          obtain ⟨q, hq', rfl⟩ := List.mem_map.1 hq
          rw [hl]
          simp only [repl]
          split
          · exact r2 p (by simp)
          · exact r2 q (by simp [hq']))
      refine ⟨y, ?_, by rw [hyl, hl], hyp.trans hp, ?_, ?_⟩
      · rw [schedule_cons]
        unfold updateSwapLists1 at *
        rw [List.foldlM_cons, e1]
        exact e2
      · intro q hq
        rcases List.mem_cons.1 hq with rfl | hq
        · rw [hy2 _ (r1 _ (by simp)).1, hx _ (r1 _ (by simp)).1, if_pos rfl]
          intro r hr
          obtain ⟨r, hr', rfl⟩ := List.mem_map.1 hr
          refine ⟨hfA r hr', ?_⟩
          have := hh r hr'
          simp only [repl]
          split <;> omega
        · have := hy1 _ (List.mem_map.2 ⟨q, hq, rfl⟩)
          rw [repl_fst] at this
          rw [this]
          have hq2 := hh q hq
          simp only [repl]
          split
          · rename_i e
            rw [hx _ (r2 p (by simp)).1, e]
            split
            · rename_i e'; rw [e']
            · rw [if_pos rfl]
          · rename_i e
            rw [hx _ (r2 q (by simp [hq])).1, if_neg (by omega), if_neg (by omega)]
      · intro g hg hgL
        rw [hy2 g hg, hx g hg]
        · have := hgL p (by simp)
          rw [if_neg (by omega), if_neg (by omega)]
        · intro q hq
          obtain ⟨q, hq', rfl⟩ := List.mem_map.1 hq
          have h1 := hgL q (by simp [hq'])
          have h2 := hgL p (by simp)
          refine ⟨h1.1, ?_⟩
          simp only [repl]
          split
          · exact h2.2
          · exact h1.2

theorem updateSwapLists_append (B A : List (Int × Int)) (x : List β) :
    updateSwapLists2 B A x = updateSwapLists1 (B ++ A) x := by
  unfold updateSwapLists2 updateSwapLists1
  rw [List.foldlM_append]

end Verif.QC
