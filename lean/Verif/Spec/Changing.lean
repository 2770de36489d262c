import Verif.Spec.EveryLine
import Verif.Changing
/-
Specification vocabulary for C127: calc_J while the files change.
-/
namespace Verif.Run
open Readers QC Log Args

/-- What a file seems to contain at some moment: a file that is there but cannot be opened seems to be empty. -/
def seems (now : Moment) (name : Str) : Option Str :=
  if now.present name then some ((now.opens name).getD []) else none

variable {α β : Type} [Zero α] [One α] [Add α] [Sub α] [Mul α] [Div α] [Num α] [DecidableEq β]

/-- What calc_J does with a command line, when `fs` says which files are there while it is parsed and reading the `i`-th file, called `name`,
gives `pun i name` (the dimer's coefficients are the first, those of the monomers the second and third) or `log i name`. -/
inductive LineWhile (tos : α → β) (fs : FS) (pun : Nat → Str → Res (Pun.Known α)) (log : Nat → Str → Res (LogLines.Known α × List Int))
    (args : List Str) : Res (Params.Params × Report α) → Prop
  /-- the version is asked for -/
  | version : Stops args → LineWhile tos fs pun log args (.exit 0)
  /-- only information is asked for -/
  | info : args ≠ [] → (∀ t ∈ args, t ∈ infoTokens) → LineWhile tos fs pun log args (.exit 0)
  /-- nothing is asked for -/
  | nothing : args = [] → LineWhile tos fs pun log args (.throw .runtimeError)
  /-- a command line that is not understood -/
  | refused {e} : Refused args e → LineWhile tos fs pun log args (.throw e)
  /-- a command line that is understood -/
  | understood {as} {r : Str → Option Str} {n1 n2 : Int} {spinP spin1 spin2 : Log.Spin} : Understood args as →
      (∀ x ∈ inputFiles, Takes fs as x.1 x.2.1 x.2.2 (r x.1)) →
      AskedNum as (lit "--orbital_num_1") n1 → AskedNum as (lit "--orbital_num_2") n2 →
      askedSpin as (lit "--spin_P") = spinP.name → askedSpin as (lit "--spin_1") = spin1.name → askedSpin as (lit "--spin_2") = spin2.name →
      LineWhile tos fs pun log args (do
        let par ← parameters as r n1 n2
        calcJ tos par spinP spin1 spin2 (pun 0 par.punP) (pun 1 par.pun1) (pun 2 par.pun2) (log 3 par.logP) (log 4 par.log1) (log 5 par.log2))

end Verif.Run
