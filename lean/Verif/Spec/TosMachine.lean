import Verif.Spec.Tos
import Mathlib.Algebra.Order.Field.Basic
import Mathlib.Algebra.Order.Ring.Rat
/-
Specification vocabulary for C126: rounding of non-negative numbers, and numbers that are clear of a tie.
-/
namespace Verif
namespace Tos

/-- A rounding of magnitudes: zero stays zero, and a result is off by at most the relative error `u` and, where exponents are small, the
absolute error `t`. IEEE double precision has `u = 2^-53`, `t = 2^-1075`. -/
structure RoundsMag (u t : Rat) (fl : Rat → Rat) : Prop where
  zero : fl 0 = 0
  nonneg : ∀ x, 0 ≤ x → 0 ≤ fl x
  err : ∀ x, 0 ≤ x → |fl x - x| ≤ u * x + t
  u_nonneg : 0 ≤ u
  t_nonneg : 0 ≤ t
  /-- eight digits, which is far less than a double has -/
  u_small : u ≤ 1 / 10 ^ 8
  t_small : t ≤ 1 / 10 ^ 18

/-- The magnitude `x`, in units of 10^-nd, is farther from half-way between two integers than rounding can move it. -/
def Clear (u t : Rat) (nd : Nat) (x : Rat) : Prop := ∀ n : Nat, u * (x * 10 ^ nd) + t < |x * 10 ^ nd - (n + 1 / 2)|

/-- `f` is below 10^6 units of 10^-nd, with some room. -/
def SmallM (nd : Nat) (f : Double) : Prop := 0 ≤ f.abs ∧ f.abs * 10 ^ nd ≤ 10 ^ 6 - 1

end Tos
end Verif
