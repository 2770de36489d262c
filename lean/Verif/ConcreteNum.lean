import Verif.Readers
/-
A concrete number type for examples: integers, read up to the decimal point. It only serves to show that hypotheses of theorems
about reading are met by concrete files and to exhibit concrete misbehaviour; no general theorem uses it.
-/
namespace Verif.Readers

/-- Integer arithmetic in the place of `double`. -/
instance : Num Int where
  stod s := match strtol s with
    | some v => .ok v
    | none => .throw .invalidArgument
  atof s := (strtol s).getD 0
  pow10 e := 10 ^ e.toNat
  stod_empty := rfl
  stod_cases s := by
    cases strtol s with
    | some v => exact .inl ⟨v, rfl⟩
    | none => exact .inr ⟨_, rfl⟩

end Verif.Readers
