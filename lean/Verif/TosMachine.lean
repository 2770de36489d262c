import Verif.DoubleTos
import Verif.Res
import Mathlib.Data.Int.Log
/-
Model of `double_tos` (matrix.cpp:171-176) in the machine's own arithmetic. Here `*` and `/` are followed by a rounding `fl` to the
nearest `double` (or any other rounding), and the number that is printed is the rounded one. Also the range of `int tens` is taken into
account.
-/
namespace Verif
namespace Tos

/-- `q` rounded to the nearest integer, ties to even. (C++ standard library; matrix.cpp:174) -/
def nearestQ (q : Rat) : Nat :=
  let k := q.floor.toNat
  if q - k < 1 / 2 then k else if 1 / 2 < q - k then k + 1 else if k % 2 = 0 then k else k + 1

/-- What `%e` with five digits after the point makes of the magnitude `q > 0`: six significant digits and the exponent.
(C++ standard library; matrix.cpp:174) -/
def significantQ (q : Rat) : Nat × Int :=
  let x := Int.log 10 q
  let m := nearestQ (q * 10 ^ (5 - x))
  if m = 10 ^ 6 then (10 ^ 5, x + 1) else (m, x)

/-- The text `%g` with precision 6 makes of six significant digits and an exponent. (C++ standard library; matrix.cpp:174) -/
def layout : Nat × Int → Str := fun (m, x) =>
  if x < -4 ∨ 6 ≤ x then
    pointed ((six m).take 1) (strip ((six m).drop 1)) ++
      (if x < 0 then ['e', '-'] else ['e', '+']) ++ (if x.natAbs < 10 then ['0'] else []) ++ Nat.toDigits 10 x.natAbs
  else if 0 ≤ x then pointed ((six m).take (x.toNat + 1)) (strip ((six m).drop (x.toNat + 1)))
  else pointed ['0'] (List.replicate (-x - 1).toNat '0' ++ strip (six m))

/-- What `operator<<(ostream&, double)` prints for the magnitude `q`. (C++ standard library; matrix.cpp:174) -/
def printQ (q : Rat) : Str := if q = 0 then ['0'] else layout (significantQ q)

/-- matrix.cpp:173 `int tens = stod("1" + string(nd, '0'))`: the conversion of 10^10 and more to `int` is undefined behaviour, and
`stod` throws from 10^309 on. Simplification: negative `nd` (for which `string(nd, '0')` throws `length_error`) are left out. -/
def tens (nd : Nat) : Res Nat :=
  if nd ≤ 9 then .ok (10 ^ nd) else if nd ≤ 308 then .ub else .throw .outOfRange

/-- matrix.cpp:174-175: `round(f * tens) / tens`, printed. `fl` is the rounding of the machine. Simplification: no overflow (`f * tens`
is finite); the same rounding for both signs. -/
def textM (fl : Rat → Rat) (t : Nat) (f : Double) : Str :=
  (if f.neg then ['-'] else []) ++ printQ (fl (((fl (f.abs * t) + 1 / 2).floor.toNat : Nat) / t))

/-- matrix.cpp:171-176 `double_tos(f, nd)`. -/
def doubleTosM (fl : Rat → Rat) (nd : Nat) (f : Double) : Res Str := do
  let t ← tens nd
  return textM fl t f

end Tos
end Verif
