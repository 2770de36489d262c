import Verif.LogReader
import Verif.PunReader
import Verif.IO
import Verif.QC
/-
Model of src/tools/main.cpp: the program calc_J.
-/
namespace Verif
open Strings Readers QC

/-- Which files exist, as the argument parser sees it. (propertyfileexist.cpp:24-27, propertysisterfile.cpp:31-34) -/
def fsOf (files : Str → Option Str) : Args.FS := fun n => (files n).isSome

section
variable {α β : Type} [Mul α] [Num α] [Zero α] [One α] [Add α] [Sub α] [Div α] [DecidableEq β]

/-- main.cpp:80-171, from the parameters and what the six readers hold to the numbers `TC.calcJ` prints. The uninitialised
pointer `getOverlapMatrix` returns when no overlap table was read counts as used here. `tos` is `double_tos(·, 4)`. -/
def couplingReport (tos : α → β) (par : Params.Params) (prP pr1 pr2 : PunData α) (lrP lr1 lr2 : LogData α) : Res (Report α) := do
  let S ← lrP.getOverlapMatrix
  let coefP ← prP.getCoefsMatrix par.spinP
  let vecOEP ← lrP.getOE par.spinP
  let oeP ← Mat.ofVec vecOEP
  let homo1 ← lr1.getHOMOLevel par.spin1
  let coef1 ← pr1.getCoefsMatrix par.spin1
  let vecOE1 ← lr1.getOE par.spin1
  let oe1 ← Mat.ofVec vecOE1
  let homo2 ← lr2.getHOMOLevel par.spin2
  let coef2 ← pr2.getCoefsMatrix par.spin2
  let vecOE2 ← lr2.getOE par.spin2
  let oe2 ← Mat.ofVec vecOE2
  let coordP ← Mat.ofVecVec lrP.getCoords
  let coord1 ← Mat.ofVecVec lr1.getCoords
  let coord2 ← Mat.ofVecVec lr2.getCoords
  let basisP := lrP.getBasisFuncCount
  let basis1 := lr1.getBasisFuncCount
  let basis2 := lr2.getBasisFuncCount
  let T ← TransferComplex.new coef1 coef2 coefP (oe1.rows, homo1) (oe2.rows, homo2) S oeP par.counterPoise
  let T ← if basis1.length ≠ 0 ∧ basis2.length ≠ 0 ∧ basisP.length ≠ 0 then
      T.unscramble tos coord1 coord2 coordP basisP basis2
    else Res.ok T
  let orbitaltypes : Map Str := Map.set (Map.set [] (lit "mon1") par.orbType1) (lit "mon2") par.orbType2
  let orbitalnums : Map Int := Map.set (Map.set [] (lit "mon1") par.orbNum1) (lit "mon2") par.orbNum2
  T.calcJReport orbitaltypes.get orbitalnums.get

/-- main.cpp:80-171: the value `TC.calcJ` returns, the last of the numbers printed. -/
def coupling (tos : α → β) (par : Params.Params) (prP pr1 pr2 : PunData α) (lrP lr1 lr2 : LogData α) : Res α := do
  let r ← couplingReport tos par prP pr1 pr2 lrP lr1 lr2
  .ok r.jeff

omit [Num α] in
theorem coupling_def (tos : α → β) (par : Params.Params) (prP pr1 pr2 : PunData α) (lrP lr1 lr2 : LogData α) :
    coupling tos par prP pr1 pr2 lrP lr1 lr2 = (do
    let S ← lrP.getOverlapMatrix
    let coefP ← prP.getCoefsMatrix par.spinP
    let vecOEP ← lrP.getOE par.spinP
    let oeP ← Mat.ofVec vecOEP
    let homo1 ← lr1.getHOMOLevel par.spin1
    let coef1 ← pr1.getCoefsMatrix par.spin1
    let vecOE1 ← lr1.getOE par.spin1
    let oe1 ← Mat.ofVec vecOE1
    let homo2 ← lr2.getHOMOLevel par.spin2
    let coef2 ← pr2.getCoefsMatrix par.spin2
    let vecOE2 ← lr2.getOE par.spin2
    let oe2 ← Mat.ofVec vecOE2
    let coordP ← Mat.ofVecVec lrP.getCoords
    let coord1 ← Mat.ofVecVec lr1.getCoords
    let coord2 ← Mat.ofVecVec lr2.getCoords
    let basisP := lrP.getBasisFuncCount
    let basis1 := lr1.getBasisFuncCount
    let basis2 := lr2.getBasisFuncCount
    let T ← TransferComplex.new coef1 coef2 coefP (oe1.rows, homo1) (oe2.rows, homo2) S oeP par.counterPoise
    let T ← if basis1.length ≠ 0 ∧ basis2.length ≠ 0 ∧ basisP.length ≠ 0 then
        T.unscramble tos coord1 coord2 coordP basisP basis2
      else Res.ok T
    let orbitaltypes : Map Str := Map.set (Map.set [] (lit "mon1") par.orbType1) (lit "mon2") par.orbType2
    let orbitalnums : Map Int := Map.set (Map.set [] (lit "mon1") par.orbNum1) (lit "mon2") par.orbNum2
    T.calcJ orbitaltypes.get orbitalnums.get) := by
  unfold coupling couplingReport TransferComplex.calcJ
  by_cases hc : lr1.getBasisFuncCount.length ≠ 0 ∧ lr2.getBasisFuncCount.length ≠ 0 ∧ lrP.getBasisFuncCount.length ≠ 0
  · simp only [if_pos hc, bind_assoc]
  · simp only [if_neg hc, bind_assoc]

/-- main.cpp:49-71: the six files are read, the coefficients first. -/
def readFiles (files : Str → Option Str) (fuel : Nat) (par : Params.Params) :
    Res ((PunData α × PunData α × PunData α) × (LogData α × LogData α × LogData α)) := do
  let prP ← readPun files fuel par.punP
  let pr1 ← readPun files fuel par.pun1
  let pr2 ← readPun files fuel par.pun2
  let lrP ← readLog files fuel par.logP
  let lr1 ← readLog files fuel par.log1
  let lr2 ← readLog files fuel par.log2
  .ok ((prP, pr1, pr2), (lrP, lr1, lr2))

/-- main.cpp:29-175 `main` with the arguments `args` (those after the program's name): the parameters and the numbers printed by
`TC.calcJ`. `D` is the type of numbers the argument parser uses. -/
def calcJRun (D : Type) [Args.Dbl D] (tos : α → β) (files : Str → Option Str) (fuel : Nat) (args : List Str) :
    Res (Params.Params × Report α) := do
  let p ← Args.prepareParser (D := D)
  let p ← Args.parse (fsOf files) p args
  let par ← Args.prepareParameters p
  let ((prP, pr1, pr2), (lrP, lr1, lr2)) ← readFiles files fuel par
  let r ← couplingReport tos par prP pr1 pr2 lrP lr1 lr2
  .ok (par, r)

/-- main.cpp:29-175 `main`: the value computed by `TC.calcJ`, in Hartree. -/
def calcJMain (D : Type) [Args.Dbl D] (tos : α → β) (files : Str → Option Str) (fuel : Nat) (args : List Str) : Res α := do
  let r ← calcJRun D tos files fuel args
  .ok r.2.jeff

theorem calcJMain_def (D : Type) [Args.Dbl D] (tos : α → β) (files : Str → Option Str) (fuel : Nat) (args : List Str) :
    calcJMain D tos files fuel args = (do
      let p ← Args.prepareParser (D := D)
      let p ← Args.parse (fsOf files) p args
      let par ← Args.prepareParameters p
      let ((prP, pr1, pr2), (lrP, lr1, lr2)) ← readFiles files fuel par
      coupling tos par prP pr1 pr2 lrP lr1 lr2) := by
  unfold calcJMain calcJRun coupling
  simp only [bind_assoc, Res.ok_bind]

end
end Verif
