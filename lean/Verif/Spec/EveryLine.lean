import Verif.Spec.Run
import Verif.Spec.Files
/-
Specification vocabulary for C124: what calc_J does on any command line whatsoever.
-/
namespace Verif.Run
open Readers QC Log Args

/-- Taking a file, or none: there must be one, and its name must end in the extension. -/
def namedFile (ext : Str) : Option Str → Res Str
  | none => .throw .runtimeError
  | some x => if ext <:+ x then .ok x else .throw (if x.length < 4 then .outOfRange else .invalidArgument)

/-- Taking the number of an orbital: its sign must go with the type. -/
def numbered (typ : Str) (n : Int) : Res Int := if SignOk typ n then .ok n else .throw .invalidArgument

/-- The parameters of the calculation, from what the command line says, the files taken for the six input flags and the two numbers. -/
def parameters (as : List Asg) (r : Str → Option Str) (n1 n2 : Int) : Res Params.Params := do
  let pP ← namedFile (lit ".pun") (r (lit "--pun_P"))
  let p1 ← namedFile (lit ".pun") (r (lit "--pun_1"))
  let p2 ← namedFile (lit ".pun") (r (lit "--pun_2"))
  let lP ← namedFile (lit ".log") (r (lit "--log_P"))
  let l1 ← namedFile (lit ".log") (r (lit "--log_1"))
  let l2 ← namedFile (lit ".log") (r (lit "--log_2"))
  let n1 ← numbered (askedType as (lit "--orbital_type_1")) n1
  let n2 ← numbered (askedType as (lit "--orbital_type_2")) n2
  .ok { log1 := l1, log2 := l2, logP := lP, pun1 := p1, pun2 := p2, punP := pP,
        spinP := askedSpin as (lit "--spin_P"), spin1 := askedSpin as (lit "--spin_1"), spin2 := askedSpin as (lit "--spin_2"),
        orbTypeP := [], orbType1 := askedType as (lit "--orbital_type_1"), orbType2 := askedType as (lit "--orbital_type_2"),
        orbNumP := 0, orbNum1 := n1, orbNum2 := n2, citation := some (turnedOn (lit "--citation") as),
        counterPoise := turnedOn (lit "--counter_poise") as }

/-- The command line says this, and says it in the right way. -/
structure Understood (args : List Str) (as : List Asg) : Prop where
  reads : Reads args as
  said : as ≠ []
  ok : ∀ a ∈ as, a.Ok

variable {α β : Type} [Zero α] [One α] [Add α] [Sub α] [Mul α] [Div α] [Num α] [DecidableEq β]

/-- What calc_J does with a command line, when there are these files and reading the file `name` gives `pun name` or `log name`. -/
inductive Line (tos : α → β) (files : Str → Option Str) (pun : Str → Res (Pun.Known α)) (log : Str → Res (LogLines.Known α × List Int))
    (args : List Str) : Res (Params.Params × Report α) → Prop
  /-- the version is asked for -/
  | version : Stops args → Line tos files pun log args (.exit 0)
  /-- only information is asked for -/
  | info : args ≠ [] → (∀ t ∈ args, t ∈ infoTokens) → Line tos files pun log args (.exit 0)
  /-- nothing is asked for -/
  | nothing : args = [] → Line tos files pun log args (.throw .runtimeError)
  /-- a command line that is not understood -/
  | refused {e} : Refused args e → Line tos files pun log args (.throw e)
  /-- a command line that is understood -/
  | understood {as} {r : Str → Option Str} {n1 n2 : Int} {spinP spin1 spin2 : Log.Spin} : Understood args as →
      (∀ x ∈ inputFiles, Takes (fun name => (files name).isSome) as x.1 x.2.1 x.2.2 (r x.1)) →
      AskedNum as (lit "--orbital_num_1") n1 → AskedNum as (lit "--orbital_num_2") n2 →
      askedSpin as (lit "--spin_P") = spinP.name → askedSpin as (lit "--spin_1") = spin1.name → askedSpin as (lit "--spin_2") = spin2.name →
      Line tos files pun log args (do
        let par ← parameters as r n1 n2
        calcJ tos par spinP spin1 spin2 (pun par.punP) (pun par.pun1) (pun par.pun2) (log par.logP) (log par.log1) (log par.log2))

end Verif.Run
