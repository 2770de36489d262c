import Verif.Output
/-
`TransferComplex` as an object that is called again and again: what it holds after a call that returned or threw, and when it warns.
-/
namespace Verif.QC
open Verif.Mat
variable {α β : Type}

/-- Outcome of a statement that yields nothing. -/
def outcome {γ : Type} : Res γ → Res Unit
  | .ok _ => .ok ()
  | .throw e => .throw e
  | .exit n => .exit n
  | .ub => .ub
  | .diverge => .diverge

/-- Sequencing with an object: if the expression fails, the call ends with that failure and the object is as it is now. -/
def orLeave {γ : Type} (T : TransferComplex α) (r : Res γ) (next : γ → Res Unit × TransferComplex α) : Res Unit × TransferComplex α :=
  match r with
  | .ok c => next c
  | r => (outcome r, T)

/-- qc_functions.cpp:626-674 `TransferComplex::unscramble`, member by member: the outcome of the call and what the object holds then. The data
members are assigned one after the other, between statements that may throw. -/
def TransferComplex.unscrambleLeft [Zero α] [DecidableEq β] (tos : α → β) (T : TransferComplex α)
    (coord1 coord2 coordP : Mat α) (basisP basis2 : List Int) : Res Unit × TransferComplex α :=
  let T0 := { T with unscrambled := true }
  if T.cp then
    orLeave T0 (Mat.matchCol tos coord1 coord2) fun match12 =>
    orLeave T0 (unscrambleCoef1 match12 basis2 T.coef2) fun coef2 =>
    let T1 := { T0 with coef2 := coef2 }
    orLeave T1 (Mat.matchCol tos coord1 coordP) fun match1P =>
    orLeave T1 (unscrambleCoef1 match1P basisP T.coefP) fun coefP =>
    let T2 := { T1 with coefP := coefP }
    orLeave T2 (unscrambleS1 match1P basisP T.S) fun S =>
    (.ok (), { T2 with S := S })
  else
    orLeave T0 (Mat.matchCol tos coord1 coordP) fun match1P =>
    orLeave T0 (Mat.matchCol tos coord2 coordP) fun match2P =>
    orLeave T0 (unscrambleCoef2 match1P match2P basisP T.coefP) fun coefP =>
    let T1 := { T0 with coefP := coefP }
    orLeave T1 (unscrambleS2 match1P match2P basisP T.S) fun S =>
    (.ok (), { T1 with S := S })

/-- qc_functions.cpp:679-685: whether `calcJ` writes its warning to standard error, which it does before anything else. -/
def TransferComplex.warns (T : TransferComplex α) : Bool := T.unscrambled == false

end Verif.QC

namespace Verif
open Strings Readers QC
variable {α β : Type} [Zero α] [DecidableEq β]

/-- main.cpp:29-163 `main` up to the call of `TC.calcJ`: whether this call writes a warning to standard error. -/
def calcJWarns (D : Type) [Args.Dbl D] [Mul α] [Num α] (tos : α → β) (files : Str → Option Str) (fuel : Nat) (args : List Str) : Res Bool := do
  let p ← Args.prepareParser (D := D)
  let p ← Args.parse (fsOf files) p args
  let par ← Args.prepareParameters p
  let ((prP, pr1, pr2), (lrP, lr1, lr2)) ← readFiles (α := α) files fuel par
  let T ← complexOf tos par prP pr1 pr2 lrP lr1 lr2
  .ok T.warns

end Verif
