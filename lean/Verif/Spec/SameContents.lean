import Verif.Spec.EveryLine
/-
The same contents under other names.
-/
namespace Verif.SameContents
open Readers QC Log Args Run Params

/-- With these files, the command line asks for a calculation with these parameters. -/
def Wants (files : Str → Option Str) (args : List Str) (par : Params) : Prop :=
  ∃ (as : List Asg) (r : Str → Option Str) (n1 n2 : Int), Understood args as ∧
    (∀ x ∈ inputFiles, Takes (fun name => (files name).isSome) as x.1 x.2.1 x.2.2 (r x.1)) ∧
    AskedNum as (lit "--orbital_num_1") n1 ∧ AskedNum as (lit "--orbital_num_2") n2 ∧ parameters as r n1 n2 = .ok par

/-- Under the name `name'` there is now what was under the name `name`, and the one may be opened by that name if the other may. -/
structure SameFile (files files' : Str → Option Str) (ext name name' : Str) : Prop where
  contents : files' name' = files name
  name : PlainName ext name' ↔ PlainName ext name

/-- The six files have the same contents, and the same orbitals are asked for, with or without counterpoise. (The names, and whether the
citation is asked for, may differ.) -/
structure SameJob (files files' : Str → Option Str) (par par' : Params) : Prop where
  punP : SameFile files files' (lit ".pun") par.punP par'.punP
  pun1 : SameFile files files' (lit ".pun") par.pun1 par'.pun1
  pun2 : SameFile files files' (lit ".pun") par.pun2 par'.pun2
  logP : SameFile files files' (lit ".log") par.logP par'.logP
  log1 : SameFile files files' (lit ".log") par.log1 par'.log1
  log2 : SameFile files files' (lit ".log") par.log2 par'.log2
  spins : par'.spinP = par.spinP ∧ par'.spin1 = par.spin1 ∧ par'.spin2 = par.spin2
  types : par'.orbType1 = par.orbType1 ∧ par'.orbType2 = par.orbType2
  numbers : par'.orbNum1 = par.orbNum1 ∧ par'.orbNum2 = par.orbNum2
  counterPoise : par'.counterPoise = par.counterPoise

/-- The outcome `out` of a calculation, with the parameters `par` known. -/
def withParams {γ : Type} (par : Params) (out : Res γ) : Res (Params × γ) := out >>= fun r => .ok (par, r)

end Verif.SameContents
