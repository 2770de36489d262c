import Verif.ArgParser
import Verif.Spec.Args
import Verif.Spec.CalcJ
/-
Specification vocabulary for an ArgumentParser with arbitrary flags and arguments.
-/
namespace Verif.Args

inductive ArgKind
  | str | switch | int | double | file
deriving DecidableEq

section
variable {D : Type}

/-- The flag has an argument of that kind. -/
def HasArg (p : Parser D) (f : Str) : ArgKind → Prop
  | .str => p.strArg.get f ≠ none
  | .switch => p.switchArg.get f ≠ none
  | .int => p.intArg.get f ≠ none
  | .double => p.doubleArg.get f ≠ none
  | .file => p.fileArg.get f ≠ none

/-- A parser used as intended: flags that have an argument have one only and have been declared, and no two flags have the same
abbreviation. -/
structure Orderly (p : Parser D) : Prop where
  one : ∀ f k k', HasArg p f k → HasArg p f k' → k = k'
  declared : ∀ f k, HasArg p f k → p.flags.get f ≠ none
  nodup : (p.flags.map (·.1)).Nodup
  short : ∀ f f' s d d', p.flags.get f = some (s, d) → p.flags.get f' = some (s, d') → f = f'

/-- The token is the name of the flag, or its abbreviation (and not the name of another flag). -/
def StandsFor (p : Parser D) (t f : Str) : Prop :=
  (p.flags.get t ≠ none ∧ f = t) ∨ (p.flags.get t = none ∧ ∃ d, p.flags.get f = some (t, d))

/-- What a command line says: the flags on it, in order, with the values that follow them (`none` for switches). -/
inductive Says (p : Parser D) : List Str → List (Str × Option Str) → Prop
  | nil : Says p [] []
  | info {t ts as} (h : t ∈ infoTokens) : Says p ts as → Says p (t :: ts) as
  | value {t f k v ts as} (hi : t ∉ infoTokens) (hv : t ∉ versionTokens) (hs : StandsFor p t f) (ha : HasArg p f k) (hk : k ≠ .switch) :
      Says p ts as → Says p (t :: v :: ts) ((f, some v) :: as)
  | switch {t f ts as} (hi : t ∉ infoTokens) (hv : t ∉ versionTokens) (hs : StandsFor p t f) (ha : HasArg p f .switch) :
      Says p ts as → Says p (t :: ts) ((f, none) :: as)

/-- The last value the command line gives for the flag, if any. -/
def lastSaid (f : Str) (as : List (Str × Option Str)) : Option (Option Str) := ((as.filter (fun a => a.1 = f)).map (·.2)).getLast?

end
end Verif.Args
