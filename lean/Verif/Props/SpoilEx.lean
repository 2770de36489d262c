import Verif.Props.Spoil
import Verif.ConcreteRounding
/-
Examples for C146 and C147.
-/
namespace Verif.SpoilEx
open Strings Readers QC Mat Log Pun Job Args Machine Sample

/-- Rational numbers and one number that is none: the quotient by zero. -/
inductive Nan where
  | num (q : Rat)
  | nan
deriving DecidableEq

namespace Nan
def lift (f : Rat → Rat → Nan) : Nan → Nan → Nan
  | num a, num b => f a b
  | _, _ => nan
instance : Zero Nan := ⟨num 0⟩
instance : One Nan := ⟨num 1⟩
instance : Add Nan := ⟨lift fun a b => num (a + b)⟩
instance : Sub Nan := ⟨lift fun a b => num (a - b)⟩
instance : Mul Nan := ⟨lift fun a b => num (a * b)⟩
instance : Div Nan := ⟨lift fun a b => if b = 0 then nan else num (a / b)⟩
end Nan

theorem nan_spoils : Spoils (fun x : Nan => x = .nan) := by
  constructor <;> rintro a b (rfl | rfl) <;> first | rfl | (cases a <;> rfl)

def mon1 : Mat Nan := ⟨1, 1, 1, [some (.num 2)]⟩
def mon2 : Mat Nan := ⟨1, 2, 1, [some (.num 1), some (.num (-1))]⟩
def dimer : Mat Nan := ⟨2, 3, 1, [some (.num 1), some (.num 0), some (.num 1), some (.num 0), some (.num 2), some (.num 1)]⟩
def levels : Mat Nan := ⟨2, 1, 1, [some (.num (-3)), some (.num 5)]⟩
/-- The overlap of the third basis function with the first is no number. -/
def overlaps : Mat Nan := ⟨3, 3, 1, [some (.num 1), some (.num 0), some (.num 0), some (.num 0), some (.num 1), some (.num 0), some .nan, some (.num 0), some (.num 1)]⟩

def entry (m : Mat Nan) (i j : Int) : Nan := match m.getElem2 i j with | .ok v => v | _ => 0

/-- C147: the bad overlap is not needed for the orbital of monomer 1 (its coefficient there is 0), but all five numbers are bad. -/
example : ∃ r, transferReport mon1 mon2 dimer overlaps levels false = .ok r ∧ r.jab = .nan ∧ r.ea = .nan ∧ r.eb = .nan ∧ r.sab = .nan ∧ r.jeff = .nan := by
  obtain ⟨r, h, -, k⟩ := C147_report nan_spoils (coef1 := mon1) (coef2 := mon2) (coefP := dimer) (S := overlaps) (oe := levels) (cp := false)
    (n1 := 1) (n2 := 2) (M := 2) (N := 3) (K := 3) (u := fun j => entry mon1 1 j) (v := fun j => entry mon2 1 j) (C := entry dimer) (s := entry overlaps)
    (E := fun i => entry levels i 1) (Values.of_table (by decide +kernel)) (Values.of_table (by decide +kernel)) (Values.of_table (by decide +kernel))
    (Values.of_table (by decide +kernel)) (Or.inl (Values.of_table (by decide +kernel))) (by decide)
  exact ⟨r, h, k.overlap ⟨3, 1, by decide, by decide, by decide, by decide, by decide +kernel⟩⟩

/-- Without it, all are numbers. -/
example : transferReport mon1 mon2 dimer ⟨3, 3, 1, [some (.num 1), some (.num 0), some (.num 0), some (.num 0), some (.num 1), some (.num 0), some (.num 0),
    some (.num 0), some (.num 1)]⟩ levels false = .ok ⟨.num 6, .num (-12), .num 2, .num (-2), .num (4 / 3)⟩ := by decide +kernel

section
variable {D : Type} [Args.Dbl D]

theorem runA : ∃ fuel par r, calcJRun D (id : Rat → Rat) filesS fuel [(lit "-p_P"), (lit "P.pun"), (lit "-p_1"), (lit "1.pun"), (lit "-p_2"), (lit "2.pun")] = .ok (par, r) := by
  obtain ⟨par, r, ⟨-, N, h⟩, -⟩ := C105_numbers D exact_rounds (id : Rat → Rat) filesS intelligibleA meantA rfl (spinP := .alpha) (spin1 := .alpha) (spin2 := .alpha) rfl rfl rfl
    monomer1 monomer2 dimerP (by decide) (by decide) rfl rfl (by simp) (by simp) (n1 := 0) (n2 := 0) (row1 := 1) (row2 := 1) rfl rfl
    (.inl (by decide)) (.inl (by decide)) (by decide) (by decide)
  exact ⟨N, par, r, h N le_rfl⟩

/-- C146 on the sample command line. -/
example : ∃ fuel par r coef1 coef2 coefP S eP row1 row2, calcJRun D (id : Rat → Rat) filesS fuel
      [(lit "-p_P"), (lit "P.pun"), (lit "-p_1"), (lit "1.pun"), (lit "-p_2"), (lit "2.pun")] = .ok (par, r) ∧
    TablesOf (id : Rat → Rat) filesS fuel par coef1 coef2 coefP S eP row1 row2 ∧ MachineReport par.counterPoise coef1 coef2 coefP S eP row1 row2 r := by
  obtain ⟨fuel, par, r, h⟩ := runA (D := D)
  obtain ⟨coef1, coef2, coefP, S, eP, row1, row2, t, k⟩ := C146_run _ _ _ _ h
  exact ⟨fuel, par, r, coef1, coef2, coefP, S, eP, row1, row2, h, t, k⟩

end
end Verif.SpoilEx
