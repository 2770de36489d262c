import Verif.Props.TotalError
import Verif.ConcreteRounding
import Mathlib.Tactic.IntervalCases
/-
Examples for C145.
-/
namespace Verif.TotalErrorEx
open Strings Readers QC Mat Log Pun Job Args Machine Sample

/-- The double next to a number (towards zero). -/
def dbl (x : Rat) : Dbl53 := ⟨(Fl.binary 52).rnd x, (Fl.binary 52).idem x⟩

/-- The orbital that is meant is (20/29, 21/29); the table has (0.69, 0.72), which are no doubles either; nor are the dimer's coefficients 0.6 and 0.8. -/
def mon1 : Mat Dbl53 := ⟨1, 2, 1, [some (dbl (69 / 100)), some (dbl (18 / 25))]⟩
def mon2 : Mat Dbl53 := ⟨1, 2, 1, [some 0, some 1]⟩
def dimer : Mat Dbl53 := ⟨2, 2, 1, [some (dbl (3 / 5)), some (dbl (4 / 5)), some (dbl (4 / 5)), some (dbl (-3 / 5))]⟩
def unit : Mat Dbl53 := ⟨2, 2, 1, [some 1, some 0, some 0, some 1]⟩
def levels : Mat Dbl53 := ⟨2, 1, 1, [some (dbl (-1)), some (dbl (1 / 5))]⟩

def u (j : Int) : Dbl53 := if j = 1 then dbl (69 / 100) else dbl (18 / 25)
def v (j : Int) : Dbl53 := if j = 1 then 0 else 1
def C (i j : Int) : Dbl53 := if i = 1 then (if j = 1 then dbl (3 / 5) else dbl (4 / 5)) else if j = 1 then dbl (4 / 5) else dbl (-3 / 5)
def s (i j : Int) : Dbl53 := if i = j then 1 else 0
def E' (i : Int) : Dbl53 := if i = 1 then dbl (-1) else dbl (1 / 5)

/-- What is meant: the projections of (20/29, 21/29) and (0, 1) on (3/5, 4/5) and (4/5, -3/5), and the levels -1 and 0.2. -/
def a (m : Int) : Rat := if m = 1 then 144 / 145 else 17 / 145
def b (m : Int) : Rat := if m = 1 then 4 / 5 else -3 / 5
def E (m : Int) : Rat := if m = 1 then -1 else 1 / 5

/-- C145 for doubles (with unbounded exponents): the overlap that is printed is 21/29 up to 0.012, the coupling is that of the orbitals meant up to 0.2; the
errors of the arithmetic do not show. -/
example : ∃ r, transferReport mon1 mon2 dimer unit levels true = .ok r ∧ |Fl.toRat r.sab - 21 / 29| ≤ 12 / 1000 ∧
    |Fl.toRat r.jeff - QC.coupling 2 a b E| ≤ 1 / 5 := by
  obtain ⟨r, h, -, k⟩ := C145_report (Fl.binary_rounds 52) (coef1 := mon1) (coef2 := mon2) (coefP := dimer) (S := unit) (oe := levels) (cp := true)
    (n1 := 2) (n2 := 2) (M := 2) (N := 2) (P := 2) (u := u) (v := v) (C := C) (s := s) (E' := E') (E := E) (a := a) (b := b) (ε := 58 / 10000) (δ := 1 / 10 ^ 15)
    (B := 1) (L := 2)
    (Values.of_table (by decide +kernel)) (Values.of_table (by decide +kernel)) (Values.of_table (by decide +kernel)) (Values.of_table (by decide +kernel))
    (Or.inl (Values.of_table (by decide +kernel))) (by decide) (by unfold Normed; decide +kernel) (by unfold Normed; decide +kernel) (by decide +kernel)
    (by unfold Near; decide +kernel) (by unfold Near; decide +kernel)
    (by intro m a b; interval_cases m <;> decide +kernel) (by intro m a b; interval_cases m <;> decide +kernel)
    (by unfold Tame; decide +kernel) (by unfold Tame; decide +kernel)
  have o : overlapAB 2 a b = 21 / 29 := by decide +kernel
  have g0 : (0 : Rat) ≤ growth ((1 / 2) ^ 52) 37 := Machine.growth_nonneg (by norm_num) _
  have g1 : growth ((1 / 2) ^ 52 : Rat) 37 ≤ 1 / 10 ^ 13 := by unfold growth; norm_num
  have k1 := k.sab
  have k2 := fun {w t d : Rat} => k.jeff (w := w) (t := t) (d := d)
  rw [o] at k1
  simp only [show 4 * (2 : Int).toNat + 4 * (2 : Int).toNat + 3 * (2 : Int).toNat + 15 = 37 from rfl] at k1 k2
  generalize growth ((1 / 2) ^ 52 : Rat) 37 = ρ at *
  have h1 : |Fl.toRat r.sab - 21 / 29| ≤ 12 / 1000 := k1.trans (by norm_num; linarith)
  refine ⟨r, h, h1, ?_⟩
  have h2 : |Fl.toRat r.sab| ≤ 737 / 1000 := by
    have := abs_le.1 h1
    rw [abs_le]
    constructor <;> linarith [this.1, this.2]
  have h0 : 0 ≤ |Fl.toRat r.sab| := abs_nonneg _
  generalize |Fl.toRat r.sab| = σ at *
  have hw : 9 / 20 ≤ 1 - (σ + ρ * 2) ^ 2 - ρ * (1 + 2 ^ 2) := by nlinarith
  have hw1 : 1 - (σ + ρ * 2) ^ 2 - ρ * (1 + 2 ^ 2) ≤ 1 := by nlinarith [sq_nonneg (σ + ρ * 2)]
  have k3 := k2 rfl (by linarith) rfl rfl
  generalize 1 - (σ + ρ * 2) ^ 2 - ρ * (1 + 2 ^ 2) = w at *
  refine k3.trans ?_
  have w0 : 0 < w := by linarith
  have inv : ∀ x : Rat, 0 ≤ x → x / w ≤ x * (20 / 9) := fun x hx => by
    rw [div_le_iff₀ w0]
    nlinarith
  have b1 := inv ((58 / 10000 * (2 + 58 / 10000) * 1 * (5 + 2 * (58 / 10000 * (2 + 58 / 10000))) + 1 / 10 ^ 15 * (1 + 58 / 10000 * (2 + 58 / 10000)) * (2 + 58 / 10000 * (2 + 58 / 10000)))) (by norm_num)
  have b2 := inv (2 * (1 + 1 / 10 ^ 15) * (1 + 2)) (by norm_num)
  have b3 : ρ * (2 * (1 + 1 / 10 ^ 15) * (1 + 2)) * (w + 1 + 2 ^ 2) / w ^ 2 ≤ 1 / 1000 := by
    rw [div_le_iff₀ (by positivity)]
    nlinarith
  norm_num at b1 b2 b3 ⊢
  linarith

section
variable {D : Type} [Args.Dbl D]

/-- C145 on the sample command lines (C105's jobs); the orbitals of the sample files are far from normalised, so the errors of the tables are large. -/
example : ∃ par r, Ends (fun fuel => calcJRun D (id : Rat → Rat) filesS fuel [(lit "-p_P"), (lit "P.pun"), (lit "-p_1"), (lit "1.pun"), (lit "-p_2"), (lit "2.pun")])
    (.ok (par, r)) ∧ TrueUpTo (0 : Rat) id (growth 0 (8 * 4 + 3 * 4 + 15)) 765 (27 * (2 + 27)) 0 6 4 (fun m => if m = 3 then 5 / 13 else if m = 4 then 12 / 13 else 0)
      (fun m => if m = 4 then -1 else 0) (energyOf energiesP) r :=
  C145_numbers D exact_rounds (id : Rat → Rat) filesS intelligibleA meantA rfl (spinP := .alpha) (spin1 := .alpha) (spin2 := .alpha) rfl rfl rfl
    monomer1 monomer2 dimerP (by decide) (by decide) rfl rfl (by simp) (by simp) (n1 := 0) (n2 := 0) (row1 := 1) (row2 := 1) rfl rfl
    (.inl (by decide)) (.inl (by decide)) (by decide) (by decide) (K' := 4) (M := 4) rfl rfl rfl rfl rfl rfl (by unfold Normed; decide +kernel)
    (by unfold Normed; decide +kernel) (by decide +kernel) (by unfold Near; decide +kernel) (by unfold Near; decide +kernel)
    (by intro m a b; interval_cases m <;> decide +kernel) (by intro m a b; interval_cases m <;> decide +kernel)
    (by unfold Tame; decide +kernel) (by unfold Tame; decide +kernel)

example : ∃ par r, Ends (fun fuel => calcJRun D (id : Rat → Rat) filesS fuel
      [(lit "-cp"), (lit "-p_P"), (lit "P.pun"), (lit "-p_1"), (lit "F.pun"), (lit "-p_2"), (lit "P.pun")])
    (.ok (par, r)) ∧ TrueUpTo (0 : Rat) id (growth 0 (8 * 4 + 3 * 4 + 15)) 200 (6 * (2 + 6)) 0 6 4
      (fun m => if m = 1 then 0 else if m = 2 then -2 / 7 else if m = 3 then 3 / 7 else 6 / 7)
      (fun m => if m = 1 then 0 else if m = 2 then -2 / 7 else if m = 3 then 3 / 7 else 6 / 7) (energyOf energiesP) r :=
  C145_numbers_cp D exact_rounds (id : Rat → Rat) filesS intelligibleC meantC rfl (spinP := .alpha) (spin1 := .alpha) (spin2 := .alpha) rfl rfl rfl
    monomerF (listed_of dimerP) dimerP (by decide) rfl (by simp) (n1 := 0) (n2 := 0) (row1 := 2) (row2 := 2) rfl rfl
    (.inl (by decide)) (.inl (by decide)) (by decide) (by decide) (K' := 4) (M := 4) rfl rfl rfl rfl rfl rfl (by unfold Normed; decide +kernel)
    (by unfold Normed; decide +kernel) (by decide +kernel) (by unfold Near; decide +kernel) (by unfold Near; decide +kernel)
    (by intro m a b; interval_cases m <;> decide +kernel) (by intro m a b; interval_cases m <;> decide +kernel)
    (by unfold Tame; decide +kernel) (by unfold Tame; decide +kernel)

end
end Verif.TotalErrorEx
