import Verif.Spec.Physics
import Verif.Spec.Spoil
/-
Specification vocabulary for C151: orbitals that are equal up to the sign.
-/
namespace Verif.QC
open Finset Verif.Mat
variable {α : Type}

/-- The report `r` on normalised orbitals with projections `a` and `b` on `M` dimer orbitals: the overlap is 1 or -1 exactly if the two are one orbital up to the
sign; and then the effective coupling is a quotient of zero by zero. -/
structure ParallelMeaning [Field α] (M : Int) (a b : Int → α) (r : Report α) : Prop where
  iff : r.sab ^ 2 = 1 ↔ (∀ m, 1 ≤ m → m ≤ M → b m = a m) ∨ ∀ m, 1 ≤ m → m ≤ M → b m = -a m
  energies : r.sab ^ 2 = 1 → r.eb = r.ea ∧ r.jab = r.sab * r.ea
  quotient : r.sab ^ 2 = 1 → r.jab - (r.ea + r.eb) * r.sab / 2 = 0 ∧ 1 - r.sab ^ 2 = 0

/-- The coefficients of the two orbitals asked for are the same. -/
def OneOrbital (coef1 coef2 : Mat α) (row1 row2 : Int) : Prop :=
  coef2.cols = coef1.cols ∧ ∀ j, 1 ≤ j → j ≤ coef1.cols → coef2.getElem2 row2 j = coef1.getElem2 row1 j

/-- What arithmetic does with the number `a` that makes the quotient one of zero by zero when the overlap is exactly 1. In floating point arithmetic this is so
for every finite number that does not overflow when doubled. -/
structure UnitAt [Zero α] [One α] [Add α] [Sub α] [Mul α] [Div α] (a : α) : Prop where
  mul_one : a * 1 = a
  mean : 1 / (1 + 1) * (a + a) = a
  sub_self : a - a = 0
  one_mul_one : (1 : α) * 1 = 1
  one_sub_one : (1 : α) - 1 = 0

end Verif.QC
