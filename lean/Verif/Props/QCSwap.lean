import Verif.QCUnscramble
import Verif.Props.MatrixA
import Mathlib.Tactic.Tauto
import Mathlib.Tactic.ByContra
/-
Properties C24-C28: the swap schedule, its termination, unmatched atoms, splitting and merging.
-/
namespace Verif.QC
open Verif.Mat
variable {α : Type}

/-! ### C24 -/

/-- C24: let every entry `(p, t)` of `monB` and `monA` ask for the block at position `t` to be put at position `p`, all
positions `p` being different and all `t` being different (and in range). Then `refreshSwapOrder` followed by
`updateSwapLists` succeeds, and the new list has at every `p` the block that was at `t`; it contains exactly the old
blocks. -/
theorem C24_swap_schedule {β : Type} (x : List β) (monB monA : List (Int × Int))
    (hp : ((monB ++ monA).map Prod.fst).Nodup) (ht : ((monB ++ monA).map Prod.snd).Nodup)
    (hin : ∀ e ∈ monB ++ monA, (1 ≤ e.1 ∧ e.1 ≤ x.length) ∧ (1 ≤ e.2 ∧ e.2 ≤ x.length)) :
    ∃ B' A' y, refreshSwapOrder2 monB monA = .ok (B', A') ∧ updateSwapLists2 B' A' x = .ok y ∧ y.Perm x ∧
      ∀ e ∈ monB ++ monA, y[(e.1 - 1).toNat]? = x[(e.2 - 1).toNat]? := by
  obtain ⟨B', A', e1, hs⟩ := refreshSwapOrder2_ok ht
  obtain ⟨y, e2, -, hperm, hy, -⟩ := schedule_exec _ _ rfl x hp ht (fun p hp => (hin p hp).1) (fun p hp => (hin p hp).2)
  refine ⟨B', A', y, e1, ?_, hperm, hy⟩
  rw [updateSwapLists_append, hs]; exact e2

/-- C24 for the one-list overloads. -/
theorem C24_swap_schedule_one {β : Type} (x : List β) (monA : List (Int × Int))
    (hp : (monA.map Prod.fst).Nodup) (ht : (monA.map Prod.snd).Nodup)
    (hin : ∀ e ∈ monA, (1 ≤ e.1 ∧ e.1 ≤ x.length) ∧ (1 ≤ e.2 ∧ e.2 ≤ x.length)) :
    ∃ A' y, refreshSwapOrder1 monA = .ok A' ∧ updateSwapLists1 A' x = .ok y ∧ y.Perm x ∧
      ∀ e ∈ monA, y[(e.1 - 1).toNat]? = x[(e.2 - 1).toNat]? := by
  obtain ⟨y, e2, -, hperm, hy, -⟩ := schedule_exec _ _ rfl x hp ht (fun p hp => (hin p hp).1) (fun p hp => (hin p hp).2)
  exact ⟨_, y, refreshSwapOrder1_ok ht, e2, hperm, hy⟩

/-- C24 as `unscramble_Coef` uses it: `A` is asked for at positions `1..|A|`, `B` at `|A|+1..|A|+|B|`. -/
theorem C24_match_lists {β : Type} (x : List β) (A B : List Int) (h : InjectiveMatch x.length (A ++ B)) :
    ∃ B' A' y, refreshSwapOrder2 (pairUp A.length B) (pairUp 0 A) = .ok (B', A') ∧ updateSwapLists2 B' A' x = .ok y ∧
      y.Perm x ∧ ∀ (i : Nat) (t : Int), (A ++ B)[i]? = some t → y[i]? = x[(t - 1).toNat]? := by
  obtain ⟨B', A', y, e1, e2, -, h3, h4⟩ := exec_list h
  exact ⟨B', A', y, e1, e2, h3, h4⟩

example : (refreshSwapOrder2 (pairUp 2 [1, 4]) (pairUp 0 [3, 2]) >>= fun p => updateSwapLists2 p.1 p.2 ["a", "b", "c", "d"])
    = .ok ["c", "b", "a", "d"] := by decide
example : InjectiveMatch 4 ([3, 2] ++ [1, 4]) := by decide

/-! ### C25 -/

/-- C25 is false: the literal search loop never ends when an entry asks for its own position and a later one asks for
the same position. -/
theorem C25_refuted_loop (w : Int) (l : List (Int × Int)) (h : ∃ p ∈ l, p.2 = w) (fuel : Nat) :
    sweepFuel w w fuel l 0 = .diverge := sweepFuel_diverge h fuel

/-- C25 is false: whenever the first atom is matched to itself and a later one to the same atom, both overloads of
`refreshSwapOrder` loop forever. -/
theorem C25_refuted (w : Int) (L A : List (Int × Int)) (h : ∃ p ∈ L, p.2 = w) :
    refreshSwapOrder1 ((w, w) :: L) = .diverge ∧ refreshSwapOrder2 ((w, w) :: L) A = .diverge := by
  constructor
  · unfold refreshSwapOrder1
    rw [refreshTail_cons]
    simp only [if_true, sweep_diverge h, Res.diverge_bind]
  · unfold refreshSwapOrder2
    rw [refreshB_cons]
    simp only [sweep_diverge h, Res.diverge_bind]

example : refreshSwapOrder1 (pairUp 0 [1, 1]) = .diverge := by decide
example : refreshSwapOrder2 (pairUp 1 [2, 2]) (pairUp 0 [1]) = .diverge := by decide

/-- Two entries share a target only if the target is not itself a position (such as the -1 of unmatched atoms). -/
def SharedOutside (L : List (Int × Int)) : Prop :=
  L.Pairwise (fun p q => p.2 = q.2 → p.2 ∉ L.map Prod.fst)

private def SharedOut (F : List Int) (L : List (Int × Int)) : Prop := L.Pairwise (fun p q => p.2 = q.2 → p.2 ∉ F)

private theorem SharedOut.sweep {F : List Int} {p : Int × Int} {L : List (Int × Int)} (h : SharedOut F (p :: L)) (hp : p.1 ∈ F) :
    sweep p.1 p.2 L = .ok (L.map (repl p.1 p.2)) := by
  apply sweep_ok
  by_cases e : p.2 = p.1
  · right
    intro q hq e2
    exact (List.pairwise_cons.1 h).1 q hq (by omega) (by rw [e]; exact hp)
  · exact Or.inl e

private theorem SharedOut.step {F : List Int} {p : Int × Int} {L : List (Int × Int)} (h : SharedOut F (p :: L)) (hp : p.1 ∈ F) :
    SharedOut F (L.map (repl p.1 p.2)) := by
  obtain ⟨h1, h2⟩ := List.pairwise_cons.1 h
  unfold SharedOut
  rw [List.pairwise_map]
  refine List.Pairwise.imp_of_mem ?_ h2
  intro q r hq hr hqr
  simp only [repl]
  intro e
  split at e <;> split at e
  · rename_i a b; exact absurd hp (by rw [← a]; exact hqr (by omega))
  · rename_i a b; rw [if_pos a]; exact h1 r hr e
  · rename_i a b; rw [if_neg a, e]; exact h1 q hq e.symm
  · rename_i a b; rw [if_neg a]; exact hqr e

private theorem tail_terminates (g : Int × Int → Bool) (hg : ∀ p, p.1 ≠ p.2 → g p = true) (F : List Int) :
    ∀ (n : Nat) (L : List (Int × Int)), L.length = n → (∀ p ∈ L, p.1 ∈ F) → SharedOut F L → ∃ L', refreshTail g L = .ok L' := by
  intro n
  induction n with
  | zero => intro L h _ _; rw [List.eq_nil_of_length_eq_zero h]; exact ⟨_, rfl⟩
  | succ n ih =>
    intro L h hF hs
    cases L with
    | nil => simp at h
    | cons p L =>
      rw [refreshTail_cons]
      have hp := hF p (by simp)
      have e : (if g p then sweep p.1 p.2 L else .ok L) = .ok (L.map (repl p.1 p.2)) := by
        by_cases hgp : g p = true
        · rw [if_pos hgp]; exact hs.sweep hp
        · rw [if_neg hgp]
          rw [map_repl_self]
          by_contra hne
          exact hgp (hg p hne)
      rw [e]
      obtain ⟨L', e'⟩ := ih (L.map (repl p.1 p.2)) (by simpa using h)
        (by intro q hq; obtain ⟨q', hq', rfl⟩ := List.mem_map.1 hq; exact hF q' (by simp [hq'])) (hs.step hp)
      exact ⟨p :: L', by simp [e']⟩

private theorem pairs_terminate (F : List Int) : ∀ (n : Nat) (B A : List (Int × Int)), B.length = n → (∀ p ∈ B ++ A, p.1 ∈ F) →
    SharedOut F (B ++ A) → ∃ B' A', refreshB B A = .ok (B', A') ∧ (∀ p ∈ A', p.1 ∈ F) ∧ SharedOut F A' := by
  intro n
  induction n with
  | zero =>
    intro B A h hF hs
    rw [List.eq_nil_of_length_eq_zero h] at hs hF ⊢
    exact ⟨[], A, rfl, hF, hs⟩
  | succ n ih =>
    intro B A h hF hs
    cases B with
    | nil => simp at h
    | cons p B =>
      have hp := hF p (by simp)
      have hall : sweep p.1 p.2 (B ++ A) = .ok ((B ++ A).map (repl p.1 p.2)) := SharedOut.sweep hs hp
      have side : p.2 ≠ p.1 ∨ ∀ q ∈ B ++ A, q.2 ≠ p.1 := by
        by_cases e : p.2 = p.1
        · right
          intro q hq e2
          exact (List.pairwise_cons.1 hs).1 q hq (by omega) (by rw [e]; exact hp)
        · exact Or.inl e
      have eB : sweep p.1 p.2 B = .ok (B.map (repl p.1 p.2)) :=
        sweep_ok (side.imp_right fun h q hq => h q (by simp [hq]))
      have eA : sweep p.1 p.2 A = .ok (A.map (repl p.1 p.2)) :=
        sweep_ok (side.imp_right fun h q hq => h q (by simp [hq]))
      obtain ⟨B', A', e1, h1, h2⟩ := ih (B.map (repl p.1 p.2)) (A.map (repl p.1 p.2)) (by simpa using h)
        (by
          rw [← List.map_append]
          intro q hq
          obtain ⟨q', hq', rfl⟩ := List.mem_map.1 hq
          exact hF q' (by simp only [List.cons_append, List.mem_cons]; right; exact hq'))
        (by rw [← List.map_append]; exact SharedOut.step hs hp)
      refine ⟨p :: B', A', ?_, h1, h2⟩
      rw [refreshB_cons, eB, eA]
      simp [e1]

/-- C25 (what holds): the scheduling ends for all match lists in which atoms share a target only outside the positions
being filled: in particular for all lists without repetitions and any number of unmatched (-1) atoms. -/
theorem C25_terminates_partial (B A : List (Int × Int)) (h : SharedOutside (B ++ A)) :
    ∃ B' A', refreshSwapOrder2 B A = .ok (B', A') := by
  obtain ⟨B', A', e, h1, h2⟩ := pairs_terminate ((B ++ A).map Prod.fst) _ B A rfl
    (fun p hp => List.mem_map.2 ⟨p, hp, rfl⟩) h
  obtain ⟨A'', e2⟩ := tail_terminates (fun p => p.1 ≠ p.2) (by simp) _ _ A' rfl h1 h2
  exact ⟨B', A'', by unfold refreshSwapOrder2; rw [e]; simp only [Res.ok_bind, e2]⟩

/-- C25 (what holds), one-list overload. -/
theorem C25_terminates_one_partial (A : List (Int × Int)) (h : SharedOutside A) : ∃ A', refreshSwapOrder1 A = .ok A' :=
  tail_terminates (fun _ => true) (fun _ _ => rfl) _ _ A rfl (fun p hp => List.mem_map.2 ⟨p, hp, rfl⟩) h

example : SharedOutside (pairUp 2 [-1, 1] ++ pairUp 0 [-1, 2]) := by unfold SharedOutside; decide
example : ¬ SharedOutside (pairUp 0 [1, 1]) := by unfold SharedOutside; decide

/-! ### C26 -/

theorem sweep_cases (w i : Int) (l : List (Int × Int)) :
    sweep w i l = .diverge ∨ sweep w i l = .ok (l.map (repl w i)) := by
  by_cases h : i ≠ w ∨ ∀ p ∈ l, p.2 ≠ w
  · exact Or.inr (sweep_ok h)
  · rw [not_or] at h
    obtain ⟨h1, h2⟩ := h
    have : i = w := by omega
    subst this
    left
    apply sweep_diverge
    simpa using h2

private theorem mem_repl {F : List Int} {w i : Int} {l : List (Int × Int)} (hw : w ∈ F) {e : Int × Int} (he : e ∈ l) (hF : e.2 ∉ F) :
    e ∈ l.map (repl w i) := by
  refine List.mem_map.2 ⟨e, he, ?_⟩
  unfold repl
  rw [if_neg]
  rintro rfl
  exact hF hw

theorem tail_keeps (g : Int × Int → Bool) (F : List Int) :
    ∀ (n : Nat) (L : List (Int × Int)), L.length = n → (∀ p ∈ L, p.1 ∈ F) →
      refreshTail g L = .diverge ∨ ∃ L', refreshTail g L = .ok L' ∧ ∀ e ∈ L, e.2 ∉ F → e ∈ L' := by
  intro n
  induction n with
  | zero => intro L h _; rw [List.eq_nil_of_length_eq_zero h]; exact Or.inr ⟨[], rfl, by simp⟩
  | succ n ih =>
    intro L h hF
    cases L with
    | nil => simp at h
    | cons p L =>
      rw [refreshTail_cons]
      have hp := hF p (by simp)
      have hL : ∀ q ∈ L, q.1 ∈ F := fun q hq => hF q (by simp [hq])
      have fin : ∀ L2 : List (Int × Int), L2.length = n → (∀ q ∈ L2, q.1 ∈ F) → (∀ e ∈ L, e.2 ∉ F → e ∈ L2) →
          (refreshTail g L2 >>= fun A => Res.ok (p :: A)) = .diverge ∨
          ∃ L', (refreshTail g L2 >>= fun A => Res.ok (p :: A)) = .ok L' ∧ ∀ e ∈ p :: L, e.2 ∉ F → e ∈ L' := by
        intro L2 h1 h2 h3
        rcases ih L2 h1 h2 with e | ⟨L', e, h4⟩
        · left; rw [e]; rfl
        · right
          refine ⟨p :: L', by rw [e]; rfl, ?_⟩
          intro x hx hxF
          rcases List.mem_cons.1 hx with rfl | hx
          · simp
          · exact List.mem_cons_of_mem _ (h4 x (h3 x hx hxF) hxF)
      by_cases hg : g p = true
      · rw [if_pos hg]
        rcases sweep_cases p.1 p.2 L with e | e
        · left; rw [e]; rfl
        · rw [e]
          exact fin _ (by simpa using h)
            (by intro q hq; obtain ⟨q', hq', rfl⟩ := List.mem_map.1 hq; exact hL q' hq')
            (fun x hx hxF => mem_repl hp hx hxF)
      · rw [if_neg hg]
        exact fin L (by simpa using h) hL (fun x hx _ => hx)

theorem pairs_keep (F : List Int) : ∀ (n : Nat) (B A : List (Int × Int)), B.length = n → (∀ p ∈ B ++ A, p.1 ∈ F) →
    refreshB B A = .diverge ∨ ∃ B' A', refreshB B A = .ok (B', A') ∧ (∀ p ∈ A', p.1 ∈ F) ∧
      (∀ e ∈ B, e.2 ∉ F → e ∈ B') ∧ (∀ e ∈ A, e.2 ∉ F → e ∈ A') := by
  intro n
  induction n with
  | zero =>
    intro B A h hF
    rw [List.eq_nil_of_length_eq_zero h] at hF ⊢
    exact Or.inr ⟨[], A, rfl, hF, by simp, fun e he _ => he⟩
  | succ n ih =>
    intro B A h hF
    cases B with
    | nil => simp at h
    | cons p B =>
      have hp := hF p (by simp)
      rw [refreshB_cons]
      rcases sweep_cases p.1 p.2 B with e | e
      · left; rw [e]; rfl
      · rw [e]
        simp only [Res.ok_bind]
        rcases sweep_cases p.1 p.2 A with e2 | e2
        · left; rw [e2]; rfl
        · rw [e2]
          simp only [Res.ok_bind]
          rcases ih (B.map (repl p.1 p.2)) (A.map (repl p.1 p.2)) (by simpa using h)
            (by
              rw [← List.map_append]
              intro q hq
              obtain ⟨q', hq', rfl⟩ := List.mem_map.1 hq
              exact hF q' (by simp only [List.cons_append, List.mem_cons]; right; exact hq')) with e3 | ⟨B', A', e3, h1, h2, h3⟩
          · left; rw [e3]; rfl
          · right
            refine ⟨p :: B', A', by rw [e3]; rfl, h1, ?_, ?_⟩
            · intro x hx hxF
              rcases List.mem_cons.1 hx with rfl | hx
              · simp
              · exact List.mem_cons_of_mem _ (h2 x (mem_repl hp hx hxF) hxF)
            · intro x hx hxF
              exact h3 x (mem_repl hp hx hxF) hxF

private theorem swapEntry_cases {β : Type} (x : List β) (p : Int × Int) :
    swapEntry x p = .ub ∨ ∃ y, swapEntry x p = .ok y ∧ y.length = x.length := by
  unfold swapEntry
  split
  · unfold listGet listSet
    repeat' split
    all_goals simp_all
    all_goals repeat' split
    all_goals simp
    all_goals omega
  · exact Or.inr ⟨x, rfl, rfl⟩

private theorem swapEntry_bad {β : Type} (x : List β) (p : Int × Int) (hne : p.1 ≠ p.2) (h : p.2 < 1 ∨ p.2 > x.length) :
    swapEntry x p = .ub := by
  unfold swapEntry
  rw [if_pos hne]
  have e : listGet x (p.2 - 1) = .ub := by
    unfold listGet
    split
    · rfl
    · rw [List.getElem?_eq_none (by omega)]
  rw [e]
  cases h1 : listGet x (p.1 - 1) <;> simp
  all_goals
    unfold listGet at h1
    split at h1
    · cases h1
    · split at h1 <;> cases h1

theorem update_bad {β : Type} (L : List (Int × Int)) (x : List β) (e : Int × Int) (he : e ∈ L) (hne : e.1 ≠ e.2)
    (h : e.2 < 1 ∨ e.2 > x.length) : updateSwapLists1 L x = .ub := by
  unfold updateSwapLists1
  refine foldlM_fail (fail := .ub) (fun _ => rfl) (fun y : List β => y.length = x.length) swapEntry L ?_ ?_ rfl
  · intro p _ s hs
    rcases swapEntry_cases s p with h1 | ⟨y, h1, h2⟩
    · exact Or.inl h1
    · exact Or.inr ⟨y, h1, by omega⟩
  · exact ⟨e, he, fun s hs => swapEntry_bad s e hne (by rw [hs]; exact h)⟩

/-- Match `t` names no atom of the dimer (`-1`, or beyond the last atom). The second case asks for the lists not to be
longer than the dimer. -/
def Unmatched (n : Nat) (matches_ : List Int) (t : Int) : Prop :=
  t ∈ matches_ ∧ (t < 1 ∨ (t > n ∧ matches_.length ≤ n))

theorem unmatched_entry {n : Nat} {k : Int} {M : List Int} {t : Int} (h : Unmatched n M t) :
    k = 0 → ∃ e ∈ pairUp k M, e.2 = t ∧ (e.2 < 1 ∨ e.2 > n) ∧ e.2 ∉ (pairUp k M).map Prod.fst := by
  rintro rfl
  obtain ⟨h1, h2⟩ := h
  obtain ⟨i, hi⟩ := List.mem_iff_getElem?.1 h1
  refine ⟨(0 + 1 + i, t), mem_pairUp.2 ⟨i, hi, rfl⟩, rfl, by omega, ?_⟩
  intro hm
  obtain ⟨q, hq, hqe⟩ := List.mem_map.1 hm
  obtain ⟨j, hj, hq1⟩ := mem_pairUp.1 hq
  have := (List.getElem?_eq_some_iff.1 hj).1
  simp only at hqe
  omega

/-- C26 is false: on matrices whose blocks are otherwise fine, an unmatched atom makes every unscrambling function walk
outside the list of blocks or loop forever; it never throws, exits or returns. Two-monomer functions. -/
theorem C26_refuted [Zero α] {m : Mat α} (h : WF m) (hs : m.shel = 1) (A B basis : List Int) (hb : ∀ b ∈ basis, 1 ≤ b)
    (hsum : basis.sum = m.cols) (t : Int) (ht : Unmatched basis.length (A ++ B) t) :
    (unscrambleCoef2 A B basis m = .ub ∨ unscrambleCoef2 A B basis m = .diverge) ∧
    (unscrambleS2 A B basis m = .ub ∨ unscrambleS2 A B basis m = .diverge) := by
  have main : unscrambleCoef2 A B basis m = .ub ∨ unscrambleCoef2 A B basis m = .diverge := by
    obtain ⟨f, hf⟩ := h.exists_isMat
    rw [hs] at hf
    have hc := h.cols1
    have hm : ColsAre m m.rows (fun i j => f i j 1) (irange 1 basis.sum) := by rw [hsum]; exact isMat_colsAre hf (by omega)
    obtain ⟨l, e2, hl⟩ := splitAtoms_cols h.rows1 hb hm
    obtain ⟨e, he, het, hbad, hnot⟩ := unmatched_entry ht rfl
    rw [pairUp_append, Int.zero_add] at he hnot
    have hlen : l.length = basis.length := by rw [hl.length_eq]; simp
    unfold unscrambleCoef2
    rw [e2]
    simp only [Res.ok_bind, pairUp_length]
    have hF : ∀ p ∈ pairUp A.length B ++ pairUp 0 A, p.1 ∈ (pairUp 0 A ++ pairUp A.length B).map Prod.fst := by
      intro p hp
      exact List.mem_map.2 ⟨p, by simp only [List.mem_append] at hp ⊢; tauto, rfl⟩
    unfold refreshSwapOrder2
    rcases pairs_keep _ _ (pairUp A.length B) (pairUp 0 A) rfl hF with e3 | ⟨B', A', e3, h1, h2, h3⟩
    · right; rw [e3]; rfl
    · rw [e3]
      simp only [Res.ok_bind]
      rcases tail_keeps (fun p => p.1 ≠ p.2) _ _ A' rfl h1 with e4 | ⟨A'', e4, h4⟩
      · right; rw [e4]; rfl
      · left
        rw [e4]
        simp only [Res.ok_bind]
        rw [updateSwapLists_append, update_bad (B' ++ A'') l e _ _ (by rw [hlen]; exact hbad)]
        · rfl
        · rcases List.mem_append.1 he with he | he
          · exact List.mem_append_right _ (h4 e (h3 e he hnot) hnot)
          · exact List.mem_append_left _ (h2 e he hnot)
        · intro e5
          exact hnot (by rw [← e5]; exact hF e (by simp only [List.mem_append] at he ⊢; tauto))
  refine ⟨main, ?_⟩
  rw [unscrambleS2_eq]
  rcases main with e | e <;> rw [e]
  · left; rfl
  · right; rfl

/-- C26 is false for the one-monomer functions as well. -/
theorem C26_refuted_one [Zero α] {m : Mat α} (h : WF m) (hs : m.shel = 1) (A basis : List Int) (hb : ∀ b ∈ basis, 1 ≤ b)
    (hsum : basis.sum = m.cols) (t : Int) (ht : Unmatched basis.length A t) :
    (unscrambleCoef1 A basis m = .ub ∨ unscrambleCoef1 A basis m = .diverge) ∧
    (unscrambleS1 A basis m = .ub ∨ unscrambleS1 A basis m = .diverge) := by
  have main : unscrambleCoef1 A basis m = .ub ∨ unscrambleCoef1 A basis m = .diverge := by
    obtain ⟨f, hf⟩ := h.exists_isMat
    rw [hs] at hf
    have hc := h.cols1
    have hm : ColsAre m m.rows (fun i j => f i j 1) (irange 1 basis.sum) := by rw [hsum]; exact isMat_colsAre hf (by omega)
    obtain ⟨l, e2, hl⟩ := splitAtoms_cols h.rows1 hb hm
    obtain ⟨e, he, het, hbad, hnot⟩ := unmatched_entry ht rfl
    have hlen : l.length = basis.length := by rw [hl.length_eq]; simp
    unfold unscrambleCoef1
    rw [e2]
    simp only [Res.ok_bind]
    have hF : ∀ p ∈ pairUp 0 A, p.1 ∈ (pairUp 0 A).map Prod.fst := fun p hp => List.mem_map.2 ⟨p, hp, rfl⟩
    unfold refreshSwapOrder1
    rcases tail_keeps (fun _ => true) _ _ (pairUp 0 A) rfl hF with e4 | ⟨A'', e4, h4⟩
    · right; rw [e4]; rfl
    · left
      rw [e4]
      simp only [Res.ok_bind]
      rw [update_bad A'' l e (h4 e he hnot) (fun e5 => hnot (by rw [← e5]; exact hF e he)) (by rw [hlen]; exact hbad)]
      rfl
  refine ⟨main, ?_⟩
  rw [unscrambleS1_eq]
  rcases main with e | e <;> rw [e]
  · left; rfl
  · right; rfl

/-- What holds in the direction of C26: it is exactly the injective in-range matches that are safe; see C29, C30. -/
example : unscrambleCoef2 [1] [-1] [1, 2] ex23 = .ub := by decide
example : Unmatched 2 ([1] ++ [-1]) (-1) := by unfold Unmatched; decide
example : WF ex23 ∧ ex23.shel = 1 ∧ ([1, 2] : List Int).sum = ex23.cols := by decide

end Verif.QC
