import Verif.Spec.Files
/-
Specification vocabulary for C152: the files whose existence may matter to calc_J.
-/
namespace Verif.Args

/-- It may matter to calc_J whether this file exists, when the command line says `as`: it is given for one of the six input flags, or it is
one of the candidates next to the last file given for the companion flag. -/
inductive AsksFor (as : List Asg) : Str → Prop
  | given {x v} : x ∈ inputFiles → v ∈ Args.given x.1 as → AsksFor as v
  | next {x w dir core ext e} : x ∈ inputFiles → (Args.given x.2.1 as).getLast? = some w → PathParts w dir core ext → e ∈ x.2.2 →
      AsksFor as (dir ++ core ++ e)

/-- Of the files whose existence may matter the same exist. -/
def SameExist (args : List Str) (exists_ exists_' : Str → Bool) : Prop :=
  ∀ as, Reads args as → ∀ name, AsksFor as name → exists_ name = exists_' name

end Verif.Args
