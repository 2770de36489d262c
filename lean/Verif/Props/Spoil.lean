import Verif.Spec.Spoil
import Verif.Props.RunErrors
/-
C147: a number that is none is never lost.
-/
namespace Verif
open Strings Readers QC Mat Machine

section
variable {α : Type} [Zero α] [One α] [Add α] [Sub α] [Mul α] [Div α] {bad : α → Prop}

omit [One α] [Sub α] [Div α] in
theorem spoil_dot (hs : ∀ a b : α, bad a ∨ bad b → bad (a + b)) (hm : ∀ a b : α, bad a ∨ bad b → bad (a * b)) {n : Int} {a b : Int → α}
    (h : ∃ k, 1 ≤ k ∧ k ≤ n ∧ (bad (a k) ∨ bad (b k))) : bad (Machine.dot n a b) := by
  obtain ⟨k, h1, h2, h3⟩ := h
  have go : ∀ m : Nat, k ≤ m → bad (Machine.sum (fun k => a k * b k) m) := by
    intro m
    induction m with
    | zero => intro h; exact absurd h (by push_cast; omega)
    | succ m ih =>
      intro h
      by_cases hk : k ≤ m
      · exact hs _ _ (.inl (ih hk))
      · obtain rfl : k = (m : Int) + 1 := by push_cast at h; omega
        exact hs _ _ (.inr (hm _ _ h3))
  exact go n.toNat (by omega)

theorem spoiled_of (S : Spoils bad) {cp : Bool} {n1 n2 M N K : Int} (hM : 1 ≤ M) (hN : 1 ≤ N) (hK : 1 ≤ K) (hc : Conforming cp n1 n2 K)
    (u v : Int → α) (C s : Int → Int → α) (E : Int → α) (p1 : 1 ≤ n1) (p2 : 1 ≤ n2) :
    Spoiled bad n1 n2 M N K u v C s E (Machine.report M (Machine.proj K N (zetaA cp n1 u) s C) (Machine.proj K N (zetaB cp n1 v) s C) E) := by
  have dot := fun {n : Int} {a b : Int → α} => spoil_dot (n := n) (a := a) (b := b) S.add S.mul
  -- a bad projection
  have weight : ∀ g : Int → α, (∃ m, 1 ≤ m ∧ m ≤ M ∧ bad (g m)) → ∀ k, bad (Machine.weighted M E g k) := fun g ⟨m, m1, m2, m3⟩ k => dot ⟨m, m1, m2, .inr m3⟩
  have jeff : ∀ gA gB : Int → α, (bad (Machine.report M gA gB E).jab ∨ bad (Machine.report M gA gB E).sab) → bad (Machine.report M gA gB E).jeff :=
    fun gA gB h => S.div _ _ (.inl (S.sub _ _ (h.imp id fun h => S.mul _ _ (.inr h))))
  have left : ∀ gA gB : Int → α, (∃ m, 1 ≤ m ∧ m ≤ M ∧ bad (gA m)) →
      bad (Machine.report M gA gB E).jab ∧ bad (Machine.report M gA gB E).ea ∧ bad (Machine.report M gA gB E).sab ∧ bad (Machine.report M gA gB E).jeff := by
    intro gA gB h
    have j : bad (Machine.report M gA gB E).jab := dot ⟨1, le_rfl, hM, .inr (weight gA h 1)⟩
    obtain ⟨m, m1, m2, m3⟩ := h
    exact ⟨j, dot ⟨m, m1, m2, .inl m3⟩, dot ⟨m, m1, m2, .inr m3⟩, jeff _ _ (.inl j)⟩
  have right : ∀ gA gB : Int → α, (∃ m, 1 ≤ m ∧ m ≤ M ∧ bad (gB m)) →
      bad (Machine.report M gA gB E).jab ∧ bad (Machine.report M gA gB E).eb ∧ bad (Machine.report M gA gB E).sab ∧ bad (Machine.report M gA gB E).jeff := by
    rintro gA gB ⟨m, m1, m2, m3⟩
    have j : bad (Machine.report M gA gB E).jab := dot ⟨m, m1, m2, .inl m3⟩
    exact ⟨j, dot ⟨m, m1, m2, .inl m3⟩, dot ⟨m, m1, m2, .inl m3⟩, jeff _ _ (.inl j)⟩
  -- every projection
  have both : ∀ gA gB : Int → α, (∃ m, 1 ≤ m ∧ m ≤ M ∧ bad (gA m)) → (∃ m, 1 ≤ m ∧ m ≤ M ∧ bad (gB m)) → bad (Machine.report M gA gB E).jab ∧
      bad (Machine.report M gA gB E).ea ∧ bad (Machine.report M gA gB E).eb ∧ bad (Machine.report M gA gB E).sab ∧ bad (Machine.report M gA gB E).jeff := by
    intro gA gB ha hb
    obtain ⟨a1, a2, a3, a4⟩ := left gA gB ha
    exact ⟨a1, a2, (right gA gB hb).2.1, a3, a4⟩
  refine ⟨?_, ?_, ?_, ?_, ?_⟩
  · rintro ⟨p, q1, q2, q3⟩
    refine left _ _ ⟨1, le_rfl, hM, dot ⟨p, q1, ?_, .inl ?_⟩⟩
    · unfold Conforming at hc; split at hc <;> omega
    · have : zetaA cp n1 u p = u p := by unfold zetaA; rw [if_pos q2]; split <;> rfl
      rw [this]; exact q3
  · rintro ⟨p, q1, q2, q3⟩
    cases cp with
    | true =>
      have hc' : n1 = K ∧ n2 = K := by simpa [Conforming] using hc
      exact right _ _ ⟨1, le_rfl, hM, dot ⟨p, q1, by omega, .inl (by simpa [zetaB] using q3)⟩⟩
    | false =>
      have hc' : n1 + n2 = K := by simpa [Conforming] using hc
      refine right _ _ ⟨1, le_rfl, hM, dot ⟨n1 + p, by omega, by omega, .inl ?_⟩⟩
      have e : n1 + p - n1 = p := by omega
      have e' : ¬ (n1 + p ≤ n1) := by omega
      simpa [zetaB, e, e'] using q3
  · rintro ⟨p, q, a1, a2, a3, a4, a5⟩
    have : ∀ z : Int → α, ∃ m, 1 ≤ m ∧ m ≤ M ∧ bad (Machine.proj K N z s C m) := fun z => ⟨1, le_rfl, hM, dot ⟨p, a1, a2, .inr (dot ⟨q, a3, a4, .inl a5⟩)⟩⟩
    exact both _ _ (this _) (this _)
  · rintro ⟨m, q, a1, a2, a3, a4, a5⟩
    have : ∀ z : Int → α, ∃ m, 1 ≤ m ∧ m ≤ M ∧ bad (Machine.proj K N z s C m) := fun z => ⟨m, a1, a2, dot ⟨1, le_rfl, hK, .inr (dot ⟨q, a3, a4, .inr a5⟩)⟩⟩
    exact both _ _ (this _) (this _)
  · rintro ⟨m, a1, a2, a3⟩
    have w : ∀ g : Int → α, bad (Machine.weighted M E g m) := fun g => dot ⟨m, a1, a2, .inl (by rw [if_pos rfl]; exact a3)⟩
    have j : bad (Machine.report M (Machine.proj K N (zetaA cp n1 u) s C) (Machine.proj K N (zetaB cp n1 v) s C) E).jab := dot ⟨m, a1, a2, .inr (w _)⟩
    exact ⟨j, dot ⟨m, a1, a2, .inr (w _)⟩, dot ⟨m, a1, a2, .inr (w _)⟩, jeff _ _ (.inl j)⟩

/-- C147: a number that is none is never lost. If among the coefficients of the two orbitals, those of the dimer, the overlaps or the energies there is one the
machine cannot compute with, so that everything computed from it is just as bad, `calculate_transfer_integral` does not print a coupling that looks right. -/
theorem C147_report (B : Spoils bad) {coef1 coef2 coefP S oe : Mat α} {cp : Bool} {n1 n2 M N K : Int} {u v : Int → α} {C s : Int → Int → α} {E : Int → α}
    (h1 : Values coef1 1 n1 (fun _ j => u j)) (h2 : Values coef2 1 n2 (fun _ j => v j)) (hP : Values coefP M N C)
    (hS : Values S K N s) (hE : VectorOf oe M E) (hc : Conforming cp n1 n2 K) :
    ∃ r, transferReport coef1 coef2 coefP S oe cp = .ok r ∧ calculateTransferIntegral coef1 coef2 coefP S oe cp = .ok r.jeff ∧
      Spoiled bad n1 n2 M N K u v C s E r := by
  have e := C99_report h1 h2 hP hS hE hc
  exact ⟨_, e, calculate_of_report e, spoiled_of B (by rw [← hP.rows]; exact hP.wf.rows1) (by rw [← hP.cols]; exact hP.wf.cols1)
    (by rw [← hS.rows]; exact hS.wf.rows1) hc u v C s E (by rw [← h1.cols]; exact h1.wf.cols1) (by rw [← h2.cols]; exact h2.wf.cols1)⟩

theorem QC.MachineReport.spoiled (B : Spoils bad) {cp : Bool} {coef1 coef2 coefP S : Mat α} {E : List α} {row1 row2 : Int} {r : Report α}
    (h : MachineReport cp coef1 coef2 coefP S E row1 row2 r) : SpoilMeaning bad coef1 coef2 coefP S E row1 row2 r := by
  intro N1 n1 N2 n2 M N K c1 c2 C s h1 h2 hP hS
  obtain ⟨hc, -, -, -, rfl⟩ := MachineReport.values h h1 h2 hP hS
  exact spoiled_of B (by rw [← hP.rows]; exact hP.wf.rows1) (by rw [← hP.cols]; exact hP.wf.cols1) (by rw [← hS.rows]; exact hS.wf.rows1) hc _ _ C s _
    (by rw [← h1.cols]; exact h1.wf.cols1) (by rw [← h2.cols]; exact h2.wf.cols1)

variable {β : Type} [Num α] [DecidableEq β] {D : Type} [Args.Dbl D]

/-- C147 (calc_J): the same for the tables of every run of calc_J that ends normally. -/
theorem C147_run (B : Spoils bad) (tos : α → β) (files : Str → Option Str) (fuel : Nat) (args : List Str) {par : Params.Params} {r : Report α}
    (h : calcJRun D tos files fuel args = .ok (par, r)) : ∃ coef1 coef2 coefP S eP row1 row2, TablesOf tos files fuel par coef1 coef2 coefP S eP row1 row2 ∧
      SpoilMeaning bad coef1 coef2 coefP S eP row1 row2 r := by
  obtain ⟨coef1, coef2, coefP, S, eP, row1, row2, t, k⟩ := C146_run tos files fuel args h
  exact ⟨coef1, coef2, coefP, S, eP, row1, row2, t, k.spoiled B⟩

end
end Verif
