import Verif.DoubleTos
import Mathlib.Algebra.Field.Rat
/-
Specification vocabulary for printed numbers: what a decimal numeral denotes, and when two numbers agree to so many decimals.
-/
namespace Verif
namespace Tos

/-- The number written by decimal digits. -/
def digitsVal (s : Str) : Nat := s.foldl (fun a c => 10 * a + (c.toNat - 48)) 0

/-- The number written by digits with at most one point among them. -/
def mantissaVal (s : Str) : Rat :=
  digitsVal (s.filter (· ≠ '.')) / 10 ^ ((s.dropWhile (· ≠ '.')).drop 1).length

/-- The exponent written `e+12` or `e-07`; nothing means zero. -/
def exponentVal : Str → Int
  | 'e' :: '+' :: t => digitsVal t
  | 'e' :: '-' :: t => -digitsVal t
  | _ => 0

/-- The number written by an unsigned numeral such as `12.5` or `1.25e+07`. -/
def unsignedVal (s : Str) : Rat := mantissaVal (s.takeWhile (· ≠ 'e')) * 10 ^ exponentVal (s.dropWhile (· ≠ 'e'))

/-- The number written by a numeral. -/
def numeralVal : Str → Rat
  | '-' :: t => -unsignedVal t
  | t => unsignedVal t

/-- `n` is the magnitude `x` in units of 10^-nd, rounded to the nearest integer, halves up. -/
def RoundsTo (nd : Nat) (x : Rat) (n : Nat) : Prop := (n : Rat) - 1 / 2 ≤ x * 10 ^ nd ∧ x * 10 ^ nd < (n : Rat) + 1 / 2

end Tos
end Verif
