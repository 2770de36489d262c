import Verif.Props.Split
import Verif.Props.FockEx
/-
Examples for C143.
-/
namespace Verif.SplitEx
open QC Mat FockEx

/-! Monomer 1 has two functions, its orbital is the first; monomer 2 has one, which overlaps with the first. The dimer's third orbital is the second
function, with a high energy. -/

def mon1 : Mat Rat := ⟨1, 2, 1, [some 1, some 0]⟩
def mon2 : Mat Rat := ⟨1, 1, 1, [some 1]⟩
def dim : Mat Rat := ⟨3, 3, 1, [some 1, some 0, some 0, some (-3 / 4), some 0, some (5 / 4), some 0, some 1, some 0]⟩
def ov : Mat Rat := ⟨3, 3, 1, [some 1, some 0, some (3 / 5), some 0, some 1, some 0, some (3 / 5), some 0, some 1]⟩
def en : Mat Rat := ⟨3, 1, 1, [some (-1), some 2, some 50]⟩
def u (j : Int) : Rat := if j = 1 then 1 else 0
def C (i j : Int) : Rat := if i = 1 then (if j = 1 then 1 else 0) else if i = 2 then (if j = 1 then -3 / 4 else if j = 3 then 5 / 4 else 0) else if j = 2 then 1 else 0
def s (i j : Int) : Rat := if i = j then 1 else if i + j = 4 then 3 / 5 else 0
def E (i : Int) : Rat := if i = 1 then -1 else if i = 2 then 2 else 50

/-- Orbitals 1 and 2 of the dimer carry both: `4 J² + (e_a - e_b)² / (1 - S²) = 3²`. -/
example : ∃ r, transferReport mon1 mon2 dim ov en false = .ok r ∧ 4 * r.jeff ^ 2 + (r.ea - r.eb) ^ 2 / (1 - r.sab ^ 2) = 3 ^ 2 ∧ r.ea ≠ r.eb := by
  obtain ⟨r, h, -, k, -⟩ := C143_two_levels (coef1 := mon1) (coef2 := mon2) (coefP := dim) (S := ov) (oe := en) (cp := false)
    (n1 := 2) (n2 := 1) (M := 3) (N := 3) (K := 3) (p := 1) (q := 2) (u := u) (v := one) (C := C) (s := s) (E := E) (by decide)
    (Values.of_table (by decide +kernel)) (Values.of_table (by decide +kernel)) (Values.of_table (by decide +kernel)) (Values.of_table (by decide +kernel))
    (Or.inl (Values.of_table (by decide +kernel))) (by decide) (by unfold Normed; decide +kernel) (by unfold Normed; decide +kernel) (by decide) (by decide) (by decide)
    (by intro m a b c d; interval_cases m <;> first | exact absurd rfl c | exact absurd rfl d | decide +kernel)
    (by intro m a b c d; interval_cases m <;> first | exact absurd rfl c | exact absurd rfl d | decide +kernel)
  have e : (transferReport mon1 mon2 dim ov en false).bind (fun r => .ok (r.sab, r.ea, r.eb)) = .ok (3 / 5, -1, 23 / 25) := by decide +kernel
  rw [h] at e
  have e' : (r.sab, r.ea, r.eb) = (3 / 5, -1, 23 / 25) := Res.ok.inj e
  have e1 : r.sab = 3 / 5 := congrArg (·.1) e'
  have e2 : r.ea = -1 := congrArg (·.2.1) e'
  have e3 : r.eb = 23 / 25 := congrArg (·.2.2) e'
  refine ⟨r, h, ?_, by rw [e2, e3]; decide +kernel⟩
  rw [k (by rw [e1]; decide +kernel)]
  decide +kernel

/-- The third level, at 50, does not count: the bound is 3. -/
example : ∃ r, transferReport mon1 mon2 dim ov en false = .ok r ∧ |r.jeff| ≤ 3 / 2 := by
  obtain ⟨r, h, -, -, -, -, -, -, -, k⟩ := C143_levels (coef1 := mon1) (coef2 := mon2) (coefP := dim) (S := ov) (oe := en) (cp := false)
    (n1 := 2) (n2 := 1) (M := 3) (N := 3) (K := 3) (u := u) (v := one) (C := C) (s := s) (E := E) (lo := -1) (hi := 2)
    (Values.of_table (by decide +kernel)) (Values.of_table (by decide +kernel)) (Values.of_table (by decide +kernel)) (Values.of_table (by decide +kernel))
    (Or.inl (Values.of_table (by decide +kernel))) (by decide) (by unfold Normed; decide +kernel) (by unfold Normed; decide +kernel)
    (by
      intro m a b c
      have z : m ≠ 3 := by
        rintro rfl
        rcases c with c | c <;> exact c (by decide +kernel)
      interval_cases m
      · decide +kernel
      · decide +kernel
      · exact absurd rfl z)
  exact ⟨r, h, k.trans (by norm_num)⟩


def dimE : Mat Rat := ⟨2, 2, 1, [some (3 / 5), some (4 / 5), some (4 / 5), some (-3 / 5)]⟩
def cE (i j : Int) : Rat := if i = 1 then (if j = 1 then 3 / 5 else 4 / 5) else if j = 1 then 4 / 5 else -3 / 5
def unit : Mat Rat := ⟨2, 2, 1, [some 1, some 0, some 0, some 1]⟩

/-- Unequal ones: the splitting 3 is made of the coupling and of the difference of the site energies. -/
example : ∃ r, transferReport mon mon dimE unit oe false = .ok r ∧ 4 * r.jeff ^ 2 + (r.ea - r.eb) ^ 2 = 3 ^ 2 ∧ r.jeff = -36 / 25 := by
  obtain ⟨r, h, h', k, -⟩ := C143_two_levels (coef1 := mon) (coef2 := mon) (coefP := dimE) (S := unit) (oe := oe) (cp := false)
    (n1 := 1) (n2 := 1) (M := 2) (N := 2) (K := 2) (p := 1) (q := 2) (u := one) (v := one) (C := cE) (s := fun i j => if i = j then 1 else 0) (E := FockEx.E) (by decide)
    (Values.of_table (by decide +kernel)) (Values.of_table (by decide +kernel)) (Values.of_table (by decide +kernel)) (Values.of_table (by decide +kernel))
    (Or.inl (Values.of_table (by decide +kernel))) (by decide) (by unfold Normed; decide +kernel) (by unfold Normed; decide +kernel) (by decide) (by decide) (by decide)
    (by intro m a b c d; omega) (by intro m a b c d; omega)
  have e : (transferReport mon mon dimE unit oe false).bind (fun r => .ok (r.sab, r.jeff)) = .ok (0, -36 / 25) := by decide +kernel
  rw [h] at e
  have e' : (r.sab, r.jeff) = (0, -36 / 25) := Res.ok.inj e
  have e1 : r.sab = 0 := congrArg (·.1) e'
  refine ⟨r, h, ?_, congrArg (·.2) e'⟩
  have := k (by rw [e1]; decide +kernel)
  rw [e1] at this
  have e0 : (1 : Rat) - 0 ^ 2 = 1 := by decide +kernel
  rw [e0, div_one] at this
  rw [this]
  decide +kernel

/-- For equal site energies twice the coupling is the splitting, up to the sign. The dimer's orbitals are the two monomers' orbitals' sum and difference,
made with functions that overlap by 7/25: lengths 8/5 and 6/5. -/
def dimS : Mat Rat := ⟨2, 2, 1, [some (5 / 8), some (5 / 8), some (5 / 6), some (-5 / 6)]⟩
def cS (i j : Int) : Rat := if i = 1 then 5 / 8 else if j = 1 then 5 / 6 else -5 / 6
def ovS : Mat Rat := ⟨2, 2, 1, [some 1, some (7 / 25), some (7 / 25), some 1]⟩
def sS (i j : Int) : Rat := if i = j then 1 else 7 / 25

example : ∃ r, transferReport mon mon dimS ovS oe false = .ok r ∧ (2 * r.jeff = 3 ∨ 2 * r.jeff = -3) := by
  obtain ⟨r, h, h', -, k⟩ := C143_two_levels (coef1 := mon) (coef2 := mon) (coefP := dimS) (S := ovS) (oe := oe) (cp := false)
    (n1 := 1) (n2 := 1) (M := 2) (N := 2) (K := 2) (p := 1) (q := 2) (u := one) (v := one) (C := cS) (s := sS) (E := FockEx.E) (by decide)
    (Values.of_table (by decide +kernel)) (Values.of_table (by decide +kernel)) (Values.of_table (by decide +kernel)) (Values.of_table (by decide +kernel))
    (Or.inl (Values.of_table (by decide +kernel))) (by decide) (by unfold Normed; decide +kernel) (by unfold Normed; decide +kernel) (by decide) (by decide) (by decide)
    (by intro m a b c d; omega) (by intro m a b c d; omega)
  have e : (transferReport mon mon dimS ovS oe false).bind (fun r => .ok (r.sab, r.ea - r.eb)) = .ok (7 / 25, 0) := by decide +kernel
  rw [h] at e
  have e' : (r.sab, r.ea - r.eb) = (7 / 25, 0) := Res.ok.inj e
  have e1 : r.sab = 7 / 25 := congrArg (·.1) e'
  have e2 : r.ea - r.eb = 0 := congrArg (·.2) e'
  have := k (by rw [e1]; decide +kernel) (sub_eq_zero.1 e2)
  have ee : FockEx.E 2 - FockEx.E 1 = 3 := by decide +kernel
  rw [ee] at this
  exact ⟨r, h, this⟩

/-- A dimer orbital more that carries a part of the monomers' breaks the equality (not the bound): the hypothesis `OnlyTwo` is needed. -/
example : ∃ r, transferReport mon mon (⟨3, 2, 1, [some (3 / 5), some (4 / 5), some (16 / 25), some (-12 / 25), some (12 / 25), some (-9 / 25)]⟩ : Mat Rat) unit
    ⟨3, 1, 1, [some (-1), some 2, some 5]⟩ false = .ok r ∧ 4 * r.jeff ^ 2 + (r.ea - r.eb) ^ 2 / (1 - r.sab ^ 2) ≠ 3 ^ 2 ∧
    4 * r.jeff ^ 2 + (r.ea - r.eb) ^ 2 / (1 - r.sab ^ 2) ≤ 6 ^ 2 := by
  refine ⟨⟨-1224 / 625, 1007 / 625, 293 / 625, 0, -1224 / 625⟩, ?_⟩
  decide +kernel

end Verif.SplitEx
