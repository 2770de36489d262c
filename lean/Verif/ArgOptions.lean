import Verif.Arguments
/-
Model of the listing functions of src/libcatnip/io/arguments/argumentobject.hpp.
-/
namespace Verif.Args
open Strings

section
variable {S D : Type}

/-- argumentobject.hpp:113-141 `getPropertyOptions()`. -/
def ArgObj.propertyOptions (a : ArgObj S D) : List Str :=
  let ops := a.ints.flatMap (·.vt.optNames) ++ a.doubles.flatMap (·.vt.optNames) ++ a.sizes.flatMap (·.vt.optNames) ++
    a.strs.flatMap (·.vt.optNames) ++ a.sets.flatMap (·.vt.optNames) ++ a.vecs.flatMap (·.vt.optNames)
  if ops.length = 0 then [(lit "NO_OPTIONS")] else ops

/-- argumentobject.hpp:146-150 (and 153-157 to 188-198), the inner loop for one property: `opts_values[opt] = value`. -/
def optValues {T : Type} (render : T → Str) (m : Map Str) (p : PropObj S T) : Res (Map Str) :=
  p.vt.optNames.foldlM (fun m opt => do
    let v ← getOpt p.opts opt
    .ok (m.set opt (render v))) m

/-- argumentobject.hpp:145-199, one of the six loops over the properties of a type. -/
def allValues {T : Type} (render : T → Str) (ps : List (PropObj S T)) (m : Map Str) : Res (Map Str) :=
  ps.foldlM (optValues render) m

/-- argumentobject.hpp:143-200 `getPropertyValues()`: option ↦ value. -/
def ArgObj.propertyValues [Dbl D] (a : ArgObj S D) : Res (Map Str) := do
  let m ← allValues intToStr a.ints []
  let m ← allValues Dbl.toStr a.doubles m
  let m ← allValues (fun n : Nat => intToStr n) a.sizes m
  let m ← allValues id a.strs m
  let m ← allValues joinTrim a.sets m
  allValues joinTrim a.vecs m

end

end Verif.Args
