import Verif.Strings
import Mathlib.Data.Rat.Floor
/-
Model of `double_tos` (matrix.cpp:171-176), the text by which coordinates are compared.
-/
namespace Verif
namespace Tos

/-- A finite `double`: its sign bit and its magnitude. Zero has two signs. Simplification: the magnitude may be any rational
number, and arithmetic on it is exact. (the argument of matrix.cpp:171) -/
structure Double where
  neg : Bool
  abs : Rat
deriving DecidableEq

/-- Its value. (matrix.cpp:171) -/
def Double.val (f : Double) : Rat := if f.neg then -f.abs else f.abs

/-- The number of decimal digits of `k`. (matrix.cpp:174) -/
def numDigitsN : Nat → Nat → Nat
  | 0, _ => 1
  | n + 1, k => if k < 10 then 1 else numDigitsN n (k / 10) + 1

def numDigits (k : Nat) : Nat := numDigitsN k k

/-- `k / d` rounded to the nearest integer, ties to even. (C++ standard library; matrix.cpp:174) -/
def nearest (k d : Nat) : Nat :=
  if 2 * (k % d) < d then k / d
  else if 2 * (k % d) > d then k / d + 1
  else if k / d % 2 = 0 then k / d else k / d + 1

/-- What `%e` with five digits after the point makes of `k / 10^nd`, `k > 0`: six significant digits and the exponent. (C++ standard library; matrix.cpp:174) -/
def significant (nd k : Nat) : Nat × Int :=
  let l := numDigits k
  if l ≤ 6 then (k * 10 ^ (6 - l), l - 1 - nd)
  else
    let m := nearest k (10 ^ (l - 6))
    if m = 10 ^ 6 then (10 ^ 5, l - nd) else (m, l - 1 - nd)

/-- A digit as a character. (C++ standard library; matrix.cpp:174) -/
def digit (d : Nat) : Char := Char.ofNat (48 + d % 10)

/-- The six digits of `m < 10^6`. (C++ standard library; matrix.cpp:174) -/
def six (m : Nat) : Str := [digit (m / 100000), digit (m / 10000), digit (m / 1000), digit (m / 100), digit (m / 10), digit m]

/-- Without trailing zeros. (C++ standard library; matrix.cpp:174) -/
def strip (s : Str) : Str := (s.reverse.dropWhile (· == '0')).reverse

/-- Digits, and more after a point if there are any. (C++ standard library; matrix.cpp:174) -/
def pointed (ip fp : Str) : Str := if fp = [] then ip else ip ++ '.' :: fp

/-- What `operator<<(ostream&, double)` prints for the magnitude `k / 10^nd`: the format `%g` with precision 6. (For magnitudes of
10^6 and more in scientific notation, with at least two digits of exponent.) Simplification: a magnitude that needs more than six
digits is rounded from the exact value, not from the nearest `double`. (C++ standard library; matrix.cpp:174) -/
def printG (nd k : Nat) : Str :=
  if k = 0 then ['0']
  else
    let (m, x) := significant nd k
    if x < -4 ∨ 6 ≤ x then
      pointed ((six m).take 1) (strip ((six m).drop 1)) ++
        (if x < 0 then ['e', '-'] else ['e', '+']) ++ (if x.natAbs < 10 then ['0'] else []) ++ Nat.toDigits 10 x.natAbs
    else if 0 ≤ x then pointed ((six m).take (x.toNat + 1)) (strip ((six m).drop (x.toNat + 1)))
    else pointed ['0'] (List.replicate (-x - 1).toNat '0' ++ strip (six m))

/-- `std::round(f * tens)` in units of one: half away from zero; the sign is kept, also that of zero. (matrix.cpp:173-174) -/
def rounded (nd : Nat) (f : Double) : Nat := (f.abs * 10 ^ nd + 1 / 2).floor.toNat

/-- matrix.cpp:171-176 `double_tos(f, nd)`. -/
def doubleTos (nd : Nat) (f : Double) : Str := (if f.neg then ['-'] else []) ++ printG nd (rounded nd f)

end Tos
end Verif
