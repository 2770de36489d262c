import Verif.Main
import Verif.Usage
import Mathlib.Algebra.Field.Defs
/-
Model of what calc_J prints to standard output (main.cpp:29-46, 138-162, argumentparser.cpp:637-687 and qc_functions.cpp:111-115).
-/
namespace Verif
open QC Readers

variable {α : Type}

/-! ### programs that write -/

/-- What a program does with standard output: write some text, or flush it (`std::endl`). -/
inductive Ev
  | text (s : Str)
  | flush
  deriving DecidableEq

/-- What a program did with standard output, and how it ended. -/
structure Wrote (γ : Type) where
  evs : List Ev
  res : Res γ

namespace Wrote
variable {γ δ : Type}

/-- One program after another. -/
def bind (w : Wrote γ) (f : γ → Wrote δ) : Wrote δ :=
  match w.res with
  | .ok a => ⟨w.evs ++ (f a).evs, (f a).res⟩
  | .throw e => ⟨w.evs, .throw e⟩
  | .exit n => ⟨w.evs, .exit n⟩
  | .ub => ⟨w.evs, .ub⟩
  | .diverge => ⟨w.evs, .diverge⟩

instance : Monad Wrote where
  pure a := ⟨[], .ok a⟩
  bind := bind

/-- `cout << s` -/
def say (s : Str) : Wrote Unit := ⟨[.text s], .ok ()⟩

/-- `cout << s`, `s` ending with `endl` -/
def line (s : Str) : Wrote Unit := ⟨[.text s, .flush], .ok ()⟩

/-- A piece of program that does not write. -/
def quiet (r : Res γ) : Wrote γ := ⟨[], r⟩

end Wrote

/-- All the text written. -/
def said : List Ev → Str
  | [] => []
  | .text s :: evs => s ++ said evs
  | .flush :: evs => said evs

/-- The text written before the last flush. -/
def sure : List Ev → Str
  | [] => []
  | .text s :: evs => if .flush ∈ evs then s ++ sure evs else []
  | .flush :: evs => sure evs

/-! ### the texts -/

/-- What calc_J knows about itself: the name it is run by (`argv[0]`), and calcJconfig.hpp with "major.minor" as the version. -/
structure About where
  program : Str
  version : Str
  surname : Str
  initials : Str
  year : Str
  title : Str
  url : Str

/-- main.cpp:30-32. -/
def startText (version : Str) : Str := (lit "\nRunning calc_J VERSION ") ++ version ++ (lit "\n")

/-- main.cpp:41-46. -/
def filesText (par : Params.Params) : Str :=
  (lit "log file for first monomer is:      ") ++ par.log1 ++ (lit "\n") ++
  (lit "log file for second monomer is:     ") ++ par.log2 ++ (lit "\n") ++
  (lit "log file for dimer is:              ") ++ par.logP ++ (lit "\n") ++
  (lit "pun file for the first monomer is:  ") ++ par.pun1 ++ (lit "\n") ++
  (lit "pun file for the second monomer is: ") ++ par.pun2 ++ (lit "\n") ++
  (lit "pun file for the dimer is:          ") ++ par.punP ++ (lit "\n")

/-- main.cpp:142-150 and 153-161: the type and, unless it is zero, the number with its sign. -/
def orbitalLabel (orbType : Str) (orbNum : Int) : Str :=
  if orbNum = 0 then orbType
  else if orbNum > 0 then orbType ++ (lit "+") ++ intToStr orbNum
  else orbType ++ intToStr orbNum

/-- main.cpp:138-161. -/
def orbitalsText (par : Params.Params) : Str :=
  (lit "\n") ++ (lit "Dimer     Spin ") ++ par.spinP ++ (lit "\n") ++
  (lit "Monomer 1 Spin ") ++ par.spin1 ++ (lit " ") ++ (lit "Orbital ") ++ orbitalLabel par.orbType1 par.orbNum1 ++ (lit "\n") ++
  (lit "Monomer 2 Spin ") ++ par.spin2 ++ (lit " ") ++ (lit "Orbital ") ++ orbitalLabel par.orbType2 par.orbNum2 ++ (lit "\n")

/-- constants.hpp:4 -/
def hartreeToeV [Field α] : α := 272114 / 10000

/-- qc_functions.cpp:111-115. `print` is `operator<<(ostream&, double)`. -/
def resultText [Field α] (print : α → Str) (r : Report α) : Str :=
  (lit "J_ab  ") ++ print (r.jab * hartreeToeV) ++ (lit " eV\n") ++
  (lit "e_a   ") ++ print (r.ea * hartreeToeV) ++ (lit " eV\n") ++
  (lit "e_b   ") ++ print (r.eb * hartreeToeV) ++ (lit " eV\n") ++
  (lit "S_ab  ") ++ print r.sab ++ (lit "\n") ++
  (lit "J_eff ") ++ print (r.jeff * hartreeToeV) ++ (lit " eV\n")

/-- argumentparser.cpp:643, 659 -/
def usageLine (about : About) : Str := (lit "Usage: ") ++ about.program ++ (lit " <options(s)> SOURCES")

/-- argumentparser.cpp:670-676 -/
def citationText (about : About) : Str :=
  (lit "\nCitation: ") ++ about.surname ++ (lit ", ") ++ about.initials ++ (lit " (") ++ about.year ++ (lit "). ") ++ about.title ++
    (lit " (Version ") ++ about.version ++ (lit "). [Software]. Available from ") ++ about.url ++ (lit ".\n\n")

/-! ### parsing -/

namespace Args
section
variable {D : Type} [Dbl D]

/-- argumentparser.cpp:643-644, 659-660: the usage line and `showUsage`, which ends with `endl`. `sizes` are those the constructor computed.
(The text `showUsage` writes is taken to come at once, at its end.) -/
def usageW (about : About) (sizes : Nat × Nat) (p : Parser D) : Wrote Unit := do
  .say (usageLine about)
  let text ← .quiet (showUsage p.flags sizes)
  .line text

/-- argumentparser.cpp:655-684, the loop of `parseLoop` with what it writes. -/
def parseLoopW (about : About) (sizes : Nat × Nat) (fs : FS) (size : Nat) : Nat → Nat → Parser D → List Str → Wrote (Parser D)
  | _, _, p, [] => pure p
  | skip + 1, allowed, p, _ :: rest => parseLoopW about sizes fs size skip allowed p rest
  | 0, allowed, p, token :: rest =>
    if token = (lit "--help") ∨ token = (lit "-h") then do
      usageW about sizes p
      if allowed = size then .quiet (.exit 0) else parseLoopW about sizes fs size 0 (allowed + 1) p rest
    else if token = (lit "--version") ∨ token = (lit "-version") then .quiet (.exit 0)
    else if token = (lit "--citation") ∨ token = (lit "-cite") then do
      .say (citationText about)
      if allowed = size then .quiet (.exit 0) else parseLoopW about sizes fs size 0 (allowed + 1) p rest
    else do
      let (p, used) ← .quiet (parseArg fs p token rest)
      parseLoopW about sizes fs size used allowed p rest

/-- argumentparser.cpp:637-687 `parse` with what it writes. -/
def parseW (about : About) (sizes : Nat × Nat) (fs : FS) (p : Parser D) (args : List Str) : Wrote (Parser D) :=
  if args = [] then do
    usageW about sizes p
    .quiet (.throw .runtimeError)
  else do
    let p ← parseLoopW about sizes fs (args.length + 1) 0 2 p args
    .quiet (postParseCheck p)
    pure p

end

/-- calc_J's help text: what `showUsage` writes for the parser calc_J constructs. (argumentparser.cpp:96-141, io.cpp:17-170) -/
def calcJHelp : Str :=
  match (newParser calcJFlagSet : Res (Parser Unit)) with
  | .ok p =>
    match showUsage p.flags (flagSizes calcJFlagSet) with
    | .ok text => text
    | _ => []
  | _ => []

end Args

/-! ### main -/

section
variable {β : Type} [Zero α] [One α] [Add α] [Sub α] [Mul α] [Div α] [Num α] [DecidableEq β]

/-- main.cpp:80-136: the first part of `couplingReport`, up to where the orbitals are printed. -/
def complexOf (tos : α → β) (par : Params.Params) (prP pr1 pr2 : PunData α) (lrP lr1 lr2 : LogData α) : Res (TransferComplex α) := do
  let S ← lrP.getOverlapMatrix
  let coefP ← prP.getCoefsMatrix par.spinP
  let vecOEP ← lrP.getOE par.spinP
  let oeP ← Mat.ofVec vecOEP
  let homo1 ← lr1.getHOMOLevel par.spin1
  let coef1 ← pr1.getCoefsMatrix par.spin1
  let vecOE1 ← lr1.getOE par.spin1
  let oe1 ← Mat.ofVec vecOE1
  let homo2 ← lr2.getHOMOLevel par.spin2
  let coef2 ← pr2.getCoefsMatrix par.spin2
  let vecOE2 ← lr2.getOE par.spin2
  let oe2 ← Mat.ofVec vecOE2
  let coordP ← Mat.ofVecVec lrP.getCoords
  let coord1 ← Mat.ofVecVec lr1.getCoords
  let coord2 ← Mat.ofVecVec lr2.getCoords
  let basisP := lrP.getBasisFuncCount
  let basis1 := lr1.getBasisFuncCount
  let basis2 := lr2.getBasisFuncCount
  let T ← TransferComplex.new coef1 coef2 coefP (oe1.rows, homo1) (oe2.rows, homo2) S oeP par.counterPoise
  if basis1.length ≠ 0 ∧ basis2.length ≠ 0 ∧ basisP.length ≠ 0 then
    T.unscramble tos coord1 coord2 coordP basisP basis2
  else Res.ok T

/-- main.cpp:163-171: the second part, `TC.calcJ`. -/
def reportOf (par : Params.Params) (T : TransferComplex α) : Res (Report α) :=
  let orbitaltypes : Map Str := Map.set (Map.set [] (lit "mon1") par.orbType1) (lit "mon2") par.orbType2
  let orbitalnums : Map Int := Map.set (Map.set [] (lit "mon1") par.orbNum1) (lit "mon2") par.orbNum2
  T.calcJReport orbitaltypes.get orbitalnums.get

omit [Num α] in
theorem couplingReport_split (tos : α → β) (par : Params.Params) (prP pr1 pr2 : PunData α) (lrP lr1 lr2 : LogData α) :
    couplingReport tos par prP pr1 pr2 lrP lr1 lr2 = complexOf tos par prP pr1 pr2 lrP lr1 lr2 >>= reportOf par := by
  unfold couplingReport complexOf
  by_cases hc : lr1.getBasisFuncCount.length ≠ 0 ∧ lr2.getBasisFuncCount.length ≠ 0 ∧ lrP.getBasisFuncCount.length ≠ 0
  · simp only [if_pos hc, bind_assoc]; rfl
  · simp only [if_neg hc, bind_assoc]; rfl

end

section
variable {β : Type} [Field α] [Num α] [DecidableEq β]

/-- `main` with what it writes, for LOG_LEVEL 0. Not modelled: the diagnostics the matrix code prints with `printf` right before it calls
`exit(1)`, and the standard error stream. (main.cpp:29-175) -/
def calcJWrites (D : Type) [Args.Dbl D] (tos : α → β) (print : α → Str) (about : About) (files : Str → Option Str) (fuel : Nat)
    (args : List Str) : Wrote (Params.Params × Report α) := do
  .line (startText about.version)
  let p ← .quiet (Args.prepareParser (D := D))
  let p ← Args.parseW about (Args.flagSizes Args.calcJFlagSet) (fsOf files) p args
  let par ← .quiet (Args.prepareParameters p)
  .say (filesText par)
  let ((prP, pr1, pr2), (lrP, lr1, lr2)) ← .quiet (readFiles files fuel par)
  let T ← .quiet (complexOf tos par prP pr1 pr2 lrP lr1 lr2)
  .line (orbitalsText par)
  let r ← .quiet (reportOf par T)
  .say (resultText print r)
  pure (par, r)

/-- The standard output of a run that ends normally. (main.cpp:28-175) -/
def calcJOutput (D : Type) [Args.Dbl D] (tos : α → β) (print : α → Str) (about : About) (files : Str → Option Str) (fuel : Nat)
    (args : List Str) : Res Str := do
  let w := calcJWrites D tos print about files fuel args
  let _ ← w.res
  .ok (said w.evs)

end
end Verif
