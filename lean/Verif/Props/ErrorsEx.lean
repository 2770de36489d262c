import Verif.Props.Errors
import Verif.Props.FockEx
/-
Examples for C144.
-/
namespace Verif.ErrorsEx
open QC Mat FockEx

/-- The pair of C132's example with the energies counted from another zero: the same coupling. -/
example : ∃ r, transferReport mon mon dimer S oe false = .ok r ∧
    transferReport mon mon dimer S (⟨2, 1, 1, [some 9, some 12]⟩ : Mat Rat) false = .ok { r with jab := r.jab + 10 * r.sab, ea := r.ea + 10, eb := r.eb + 10 } ∧
    r.jeff = -9 / 10 := by
  obtain ⟨r, h, h', k⟩ := C144_zero (coef1 := mon) (coef2 := mon) (coefP := dimer) (S := S) (oe := oe) (oe' := ⟨2, 1, 1, [some 9, some 12]⟩) (cp := false)
    (n1 := 1) (n2 := 1) (M := 2) (N := 2) (K := 2) (u := one) (v := one) (C := c) (s := s) (E := E) 10
    (Values.of_table (by decide +kernel)) (Values.of_table (by decide +kernel)) (Values.of_table (by decide +kernel)) (Values.of_table (by decide +kernel))
    (Or.inl (Values.of_table (by decide +kernel))) (Or.inl (Values.of_table (by decide +kernel))) (by decide) (by unfold Normed; decide +kernel)
    (by unfold Normed; decide +kernel)
  have e : (transferReport mon mon dimer S oe false).bind (fun r => .ok r.jeff) = .ok (-9 / 10) := by decide +kernel
  rw [h] at e
  exact ⟨r, h, h', Res.ok.inj e⟩

/-- Energies that are off by up to 1/100 change the coupling by at most 1/100. -/
example : ∃ r r', transferReport mon mon dimer S oe false = .ok r ∧ transferReport mon mon dimer S (⟨2, 1, 1, [some (-101 / 100), some (399 / 200)]⟩ : Mat Rat) false = .ok r' ∧
    |r'.jeff - r.jeff| ≤ 1 / 100 := by
  obtain ⟨r, r', h, h', -, -, -, -, -, k⟩ := C144_energies (coef1 := mon) (coef2 := mon) (coefP := dimer) (S := S) (oe := oe)
    (oe' := ⟨2, 1, 1, [some (-101 / 100), some (399 / 200)]⟩) (cp := false)
    (n1 := 1) (n2 := 1) (M := 2) (N := 2) (K := 2) (u := one) (v := one) (C := c) (s := s) (E := E) (E' := fun i => if i = 1 then -101 / 100 else 399 / 200) (δ := 1 / 100)
    (Values.of_table (by decide +kernel)) (Values.of_table (by decide +kernel)) (Values.of_table (by decide +kernel)) (Values.of_table (by decide +kernel))
    (Or.inl (Values.of_table (by decide +kernel))) (Or.inl (Values.of_table (by decide +kernel))) (by decide) (by unfold Normed; decide +kernel)
    (by unfold Normed; decide +kernel) (by intro m a b; interval_cases m <;> decide +kernel)
  exact ⟨r, r', h, h', k⟩

/-- Two normalised jobs: the second monomer's orbital is turned a little within the dimer's two functions (counterpoise), (0, 1) to (20/101, 99/101). -/
def monA : Mat Rat := ⟨1, 2, 1, [some 1, some 0]⟩
def monB : Mat Rat := ⟨1, 2, 1, [some 0, some 1]⟩
def monB' : Mat Rat := ⟨1, 2, 1, [some (20 / 101), some (99 / 101)]⟩
def unit : Mat Rat := ⟨2, 2, 1, [some 1, some 0, some 0, some 1]⟩
def dimE : Mat Rat := ⟨2, 2, 1, [some (3 / 5), some (4 / 5), some (4 / 5), some (-3 / 5)]⟩
def cE (i j : Int) : Rat := if i = 1 then (if j = 1 then 3 / 5 else 4 / 5) else if j = 1 then 4 / 5 else -3 / 5
def sE (i j : Int) : Rat := if i = j then 1 else 0

example : ∃ r r', transferReport monA monB dimE unit oe true = .ok r ∧ transferReport monA monB' dimE unit oe true = .ok r' ∧
    |r'.sab - r.sab| ≤ 2 / 5 ∧ |r'.eb - r.eb| ≤ 3 / 5 := by
  obtain ⟨r, r', h, h', -, -, k1, -, k2, -⟩ := C144_close (coef1 := monA) (coef2 := monB) (coefP := dimE) (S := unit) (oe := oe)
    (coef1' := monA) (coef2' := monB') (coefP' := dimE) (S' := unit) (oe' := oe) (cp := true) (cp' := true) (n1 := 2) (n2 := 2) (n1' := 2) (n2' := 2)
    (M := 2) (N := 2) (K := 2) (N' := 2) (K' := 2) (u := fun j => if j = 1 then 1 else 0) (v := fun j => if j = 1 then 0 else 1)
    (u' := fun j => if j = 1 then 1 else 0) (v' := fun j => if j = 1 then 20 / 101 else 99 / 101) (C := cE) (s := sE) (C' := cE) (s' := sE) (E := E) (E' := E)
    (ε := 1 / 5) (δ := 0) (lo := -1) (hi := 2)
    (Values.of_table (by decide +kernel)) (Values.of_table (by decide +kernel)) (Values.of_table (by decide +kernel)) (Values.of_table (by decide +kernel))
    (Or.inl (Values.of_table (by decide +kernel))) (by decide)
    (Values.of_table (by decide +kernel)) (Values.of_table (by decide +kernel)) (Values.of_table (by decide +kernel)) (Values.of_table (by decide +kernel))
    (Or.inl (Values.of_table (by decide +kernel))) (by decide) (by unfold Normed; decide +kernel)
    (by unfold Normed; decide +kernel) (by unfold Normed; decide +kernel) (by unfold Normed; decide +kernel) (by decide +kernel)
    (by unfold Near; decide +kernel) (by unfold Near; decide +kernel)
    (by intro m a b; interval_cases m <;> decide +kernel) (by intro m a b; interval_cases m <;> decide +kernel)
  refine ⟨r, r', h, h', k1.trans (by norm_num), k2.trans (by norm_num)⟩

/-- Rounded coefficients: meant is (20/29, 21/29), printed with two digits (0.69, 0.72), so that the orbital of the tables is not normalised. -/
def mon' : Mat Rat := ⟨1, 2, 1, [some (69 / 100), some (18 / 25)]⟩
def monM : Mat Rat := ⟨1, 2, 1, [some 0, some 1]⟩

example : ∃ r, transferReport mon' monM dimE unit oe true = .ok r ∧
    Approximates (2 * (1 / 200) * (2 + 2 * (1 / 200))) 0 2 2 (proj 2 2 (fun j => if j = 1 then 20 / 29 else 21 / 29) sE cE)
      (proj 2 2 (fun j => if j = 1 then 0 else 1) sE cE) E r := by
  obtain ⟨r, h, -, k⟩ := C144_coefs (coef1 := mon') (coef2 := monM) (coefP := dimE) (S := unit) (oe := oe) (cp := true) (n1 := 2) (n2 := 2) (K := 2)
    (u := fun j => if j = 1 then 69 / 100 else 18 / 25) (v := fun j => if j = 1 then 0 else 1) (u₀ := fun j => if j = 1 then 20 / 29 else 21 / 29)
    (v₀ := fun j => if j = 1 then 0 else 1) (C := cE) (s := sE) (E := E) (E' := E) (κ := 1 / 200) (δ := 0) (B := 2)
    (Values.of_table (by decide +kernel)) (Values.of_table (by decide +kernel)) (Values.of_table (by decide +kernel)) (Values.of_table (by decide +kernel))
    (Or.inl (Values.of_table (by decide +kernel))) (by decide)
    (by intro m n a b c d; interval_cases m <;> interval_cases n <;> decide +kernel)
    (by intro m n a b c d; interval_cases m <;> interval_cases n <;> decide +kernel) (by decide +kernel) (by decide +kernel) (by decide +kernel)
    (by intro j a b; interval_cases j <;> decide +kernel) (by intro j a b; interval_cases j <;> decide +kernel)
    (by intro m a b; interval_cases m <;> decide +kernel) (by intro m a b; interval_cases m <;> decide +kernel)
  exact ⟨r, h, k⟩

end Verif.ErrorsEx
