import Verif.Spec.Chars
import Verif.Spec.Strings
import Verif.Maps
/-
Specification vocabulary for command line arguments.
-/
namespace Verif.Args

/-- `path` is `dir` followed by `core` followed by `ext`: `dir` is empty or ends in the separator, the file name has no
separator, and `ext` is the part of the file name from its last dot on (empty if it has none). -/
structure PathParts (path dir core ext : Str) : Prop where
  eq : path = dir ++ core ++ ext
  dir_ends : dir = [] ∨ ∃ d, dir = d ++ ['/']
  no_sep : ∀ c ∈ core ++ ext, c ≠ '/'
  ext_dot : (ext = [] ∧ '.' ∉ core) ∨ ∃ e, ext = '.' :: e ∧ '.' ∉ e

/-- The value of the last entry for a key in a history of assignments, or the default. -/
def lastFor {K V : Type} [DecidableEq K] (key : K) (dflt : V) : List (K × V) → V
  | [] => dflt
  | (k, v) :: h => lastFor key (if k = key then v else dflt) h

/-- Decimal digits (most significant first) and the number they denote. -/
inductive Decimal : Str → Nat → Prop
  | one (d : Nat) (h : d < 10) : Decimal [Char.ofNat (48 + d)] d
  | snoc {s : Str} {n : Nat} (d : Nat) (h : d < 10) : Decimal s n → Decimal (s ++ [Char.ofNat (48 + d)]) (n * 10 + d)

/-- Text that starts, after white space, with an optionally signed integer `v`, followed by no further digit. -/
inductive IntText : Str → Int → Prop
  | plain {w ds rest : Str} {n : Nat} (hw : ∀ c ∈ w, White c = true) (hd : Decimal ds n)
      (hr : ∀ c t, rest = c :: t → Digit c = false) : IntText (w ++ ds ++ rest) n
  | plus {w ds rest : Str} {n : Nat} (hw : ∀ c ∈ w, White c = true) (hd : Decimal ds n)
      (hr : ∀ c t, rest = c :: t → Digit c = false) : IntText (w ++ '+' :: ds ++ rest) n
  | minus {w ds rest : Str} {n : Nat} (hw : ∀ c ∈ w, White c = true) (hd : Decimal ds n)
      (hr : ∀ c t, rest = c :: t → Digit c = false) : IntText (w ++ '-' :: ds ++ rest) (-n)

end Verif.Args
