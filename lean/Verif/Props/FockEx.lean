import Verif.Props.Fock
import Mathlib.Tactic.FinCases
import Mathlib.Tactic.NormNum
import Mathlib.Tactic.IntervalCases
/-
Examples for C132.
-/
namespace Verif.FockEx
open QC Mat

/-- Two orbitals with overlap 3/5; the dimer's orbitals made orthonormal one after the other. -/
def mon : Mat Rat := ⟨1, 1, 1, [some 1]⟩
def dimer : Mat Rat := ⟨2, 2, 1, [some 1, some 0, some (-3 / 4), some (5 / 4)]⟩
def S : Mat Rat := ⟨2, 2, 1, [some 1, some (3 / 5), some (3 / 5), some 1]⟩
def oe : Mat Rat := ⟨2, 1, 1, [some (-1), some 2]⟩

def one (_ : Int) : Rat := 1
def c (i j : Int) : Rat := if i = 1 then (if j = 1 then 1 else 0) else if j = 1 then -3 / 4 else 5 / 4
def s (i j : Int) : Rat := if i = j then 1 else 3 / 5
def E (i : Int) : Rat := if i = 1 then -1 else 2
/-- The Fock matrix of these orbitals and energies. -/
def F (i j : Int) : Rat := if i ≠ j then -3 / 5 else if i = 1 then -1 else 23 / 25

theorem orthonormal : Orthonormal 2 s c := by
  intro m n h1 h2 h3 h4
  interval_cases m <;> interval_cases n <;> decide +kernel

theorem roothaan : Roothaan 2 F s c E := by
  intro m p h1 h2 h3 h4
  interval_cases m <;> interval_cases p <;> decide +kernel

/-- The coupling of this pair, computed from the dimer's orbitals, is what its Fock matrix gives. -/
example : calculateTransferIntegral mon mon dimer S oe false = .ok (-9 / 10) := by
  rw [(C132_fock (u := one) (v := one) (n1 := 1) (n2 := 1) (Values.of_table (by decide +kernel)) (Values.of_table (by decide +kernel))
    (Values.of_table (by decide +kernel)) (Values.of_table (by decide +kernel)) (Or.inl (Values.of_table (by decide +kernel))) (by decide)
    orthonormal roothaan).2]
  decide +kernel

example : ∃ r, transferReport mon mon dimer S oe false = .ok r ∧ r.sab ^ 2 ≤ 1 ∧ 1 - r.sab ^ 2 ≠ 0 := by
  obtain ⟨r, h1, h2, h3⟩ := C132_defined (u := one) (v := one) (n1 := 1) (n2 := 1) (E := E) (s := s) (C := c) (coef1 := mon) (coef2 := mon)
    (coefP := dimer) (S := S) (oe := oe) (cp := false)
    (Values.of_table (by decide +kernel)) (Values.of_table (by decide +kernel)) (Values.of_table (by decide +kernel))
    (Values.of_table (by decide +kernel)) (Or.inl (Values.of_table (by decide +kernel))) (by decide)
    orthonormal (by decide +kernel) (by decide +kernel)
  refine ⟨r, h1, h2, fun h0 => ?_⟩
  rcases h3.1 h0 with h | h
  · exact absurd (h 1 (by decide) (by decide)) (by decide +kernel)
  · exact absurd (h 1 (by decide) (by decide)) (by decide +kernel)

/-- The energies -1 and 2 differ by 3, and `3² = 4 (9/10)² + (48/25)² / (1 - (3/5)²)`. -/
example : ∃ r, transferReport mon mon dimer S oe false = .ok r ∧ (E 1 - E 2) ^ 2 = 4 * r.jeff ^ 2 + (r.ea - r.eb) ^ 2 / (1 - r.sab ^ 2) := by
  obtain ⟨r, h1, h2, h3⟩ := C132_splitting (u := one) (v := one) (n1 := 1) (n2 := 1) (N := 2) (K := 2) (E := E) (s := s) (C := c) (coef1 := mon) (coef2 := mon)
    (coefP := dimer) (S := S) (oe := oe) (cp := false)
    (Values.of_table (by decide +kernel)) (Values.of_table (by decide +kernel)) (Values.of_table (by decide +kernel))
    (Values.of_table (by decide +kernel)) (Or.inl (Values.of_table (by decide +kernel))) (by decide)
    (by decide +kernel) (by decide +kernel)
  have e : (transferReport mon mon dimer S oe false).bind (fun r => .ok r.sab) = .ok (3 / 5) := by decide +kernel
  rw [h1] at e
  have e' : r.sab = 3 / 5 := Res.ok.inj e
  exact ⟨r, h1, (h3 (by rw [e']; norm_num)).1⟩

/-- A Loewdin matrix with rational entries. -/
theorem loewdin : Loewdin (24 / 25 : Rat) !![20 / 7, -15 / 7; -15 / 7, 20 / 7] :=
  ⟨by decide +kernel, by decide +kernel, by decide +kernel, by ext i j; fin_cases i <;> fin_cases j <;> decide +kernel⟩

example : ((!![20 / 7, -15 / 7; -15 / 7, 20 / 7] * pairEnergy (-3) (-2) (1 / 2 : Rat) * !![20 / 7, -15 / 7; -15 / 7, 20 / 7] :
      Matrix (Fin 2) (Fin 2) Rat) 0 1) =
    (1 / 2 - (-3 + -2) * (24 / 25) / 2) / (1 - (24 / 25) ^ 2) := (C132_loewdin loewdin).1

/-- The same pair with real numbers. -/
example : ∃ r, transferReport (α := ℝ) ⟨1, 1, 1, [some 1]⟩ ⟨1, 1, 1, [some 1]⟩ ⟨2, 2, 1, [some 1, some 0, some (-3 / 4), some (5 / 4)]⟩
      ⟨2, 2, 1, [some 1, some (3 / 5), some (3 / 5), some 1]⟩ ⟨2, 1, 1, [some (-1), some 2]⟩ false = .ok r ∧ r.sab ^ 2 < 1 := by
  obtain ⟨r, hr, -, -, -, e, -⟩ := C82_numbers (α := ℝ) (coef1 := ⟨1, 1, 1, [some 1]⟩) (coef2 := ⟨1, 1, 1, [some 1]⟩)
    (coefP := ⟨2, 2, 1, [some 1, some 0, some (-3 / 4), some (5 / 4)]⟩) (S := ⟨2, 2, 1, [some 1, some (3 / 5), some (3 / 5), some 1]⟩)
    (oe := ⟨2, 1, 1, [some (-1), some 2]⟩) (cp := false) (n1 := 1) (n2 := 1) (M := 2) (N := 2) (K := 2) (u := fun _ => 1) (v := fun _ => 1)
    (C := fun i j => if i = 1 then (if j = 1 then 1 else 0) else if j = 1 then -3 / 4 else 5 / 4)
    (s := fun i j => if i = j then 1 else 3 / 5) (E := fun i => if i = 1 then -1 else 2)
    ⟨⟨⟨by decide, by decide, by decide, rfl, by simp⟩, by decide, by decide, by decide⟩, rfl, rfl, rfl, fun i j _ _ _ _ => by interval_cases i; interval_cases j; rfl⟩
    ⟨⟨⟨by decide, by decide, by decide, rfl, by simp⟩, by decide, by decide, by decide⟩, rfl, rfl, rfl, fun i j _ _ _ _ => by interval_cases i; interval_cases j; rfl⟩
    ⟨⟨⟨by decide, by decide, by decide, rfl, by simp⟩, by decide, by decide, by decide⟩, rfl, rfl, rfl, fun i j _ _ _ _ => by interval_cases i <;> interval_cases j <;> rfl⟩
    ⟨⟨⟨by decide, by decide, by decide, rfl, by simp⟩, by decide, by decide, by decide⟩, rfl, rfl, rfl, fun i j _ _ _ _ => by interval_cases i <;> interval_cases j <;> rfl⟩
    (Or.inl ⟨⟨⟨by decide, by decide, by decide, rfl, by simp⟩, by decide, by decide, by decide⟩, rfl, rfl, rfl, fun i j _ _ _ _ => by interval_cases i <;> interval_cases j <;> rfl⟩) (by decide)
  refine ⟨r, hr, ?_⟩
  rw [e]
  have i2 : Finset.Icc (1 : Int) 2 = {1, 2} := by decide
  simp [overlapAB, proj, zetaA, zetaB, i2]
  norm_num

end Verif.FockEx
