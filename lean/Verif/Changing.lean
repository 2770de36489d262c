import Verif.Main
/-
Model of calc_J (src/tools/main.cpp) while the files change: a file may appear, vanish, be replaced or become unreadable between the moments
at which calc_J looks at it. `Verif.Main` is the case in which they do not.
-/
namespace Verif
open Strings Readers QC

/-- The files at the moment at which one of them is read: for which names `stat` succeeds (filereader.cpp:72-75), and what `fid_.open` gets
from a name right afterwards (filereader.cpp:33): a text, or nothing (the file has vanished meanwhile, may not be read, is a directory).
Simplification: a file that was opened does not change while it is read. -/
structure Moment where
  present : Str → Bool
  opens : Str → Option Str

namespace Readers
variable {σ : Type}

/-- filereader.cpp:14-25 `read` (with `open` 29-35 and `fileExist_` 72-75). If `fid_.open` fails, `failbit` is set; the code does not test it.
(For a directory the first `getline` fails instead.) -/
def readAt (s : Sections σ) (now : Moment) (fileName : Str) (fuel : Nat) (data : σ) : Res σ :=
  if now.present fileName then
    match now.opens fileName with
    | none => do
      let r ← readLoop s fuel ⟨⟨[], false, true⟩, some [], data⟩ []
      .ok r.data
    | some text => do
      let r ← readLoop s fuel ⟨openText text, some text, data⟩ []
      .ok r.data
  else .throw .invalidArgument

variable {α : Type} [Mul α] [Num α] [Zero α]

/-- `PunReader pr(fileName); pr.read();` (main.cpp:52-60, punreader.cpp:17-20) -/
def readPunAt (now : Moment) (fuel : Nat) (fileName : Str) : Res (PunData α) := do
  let _ ← punReaderNew (α := α) fileName
  readAt punSections now fileName fuel []

/-- `LogReader lr(fileName); lr.read();` (main.cpp:62-71, logreader.cpp:67-70) -/
def readLogAt (now : Moment) (fuel : Nat) (fileName : Str) : Res (LogData α) := do
  let _ ← logReaderNew (α := α) fileName
  readAt logSections now fileName fuel LogData.empty

end Readers

/-- main.cpp:29-175 `main` with the arguments `args`: `fs` says which files exist while the command line is parsed, `at i` how things are when
the `i`-th file is read (0, 1, 2 for the coefficients of the dimer and of the monomers, 3, 4, 5 for the log files). Simplification: nothing
changes while the command line is parsed. -/
def calcJWhile {α β : Type} [Mul α] [Num α] [Zero α] [One α] [Add α] [Sub α] [Div α] [DecidableEq β] (D : Type) [Args.Dbl D] (tos : α → β)
    (fs : Args.FS) (when : Nat → Moment) (fuel : Nat) (args : List Str) : Res (Params.Params × Report α) := do
  let p ← Args.prepareParser (D := D)
  let p ← Args.parse fs p args
  let par ← Args.prepareParameters p
  let prP ← readPunAt (when 0) fuel par.punP
  let pr1 ← readPunAt (when 1) fuel par.pun1
  let pr2 ← readPunAt (when 2) fuel par.pun2
  let lrP ← readLogAt (when 3) fuel par.logP
  let lr1 ← readLogAt (when 4) fuel par.log1
  let lr2 ← readLogAt (when 5) fuel par.log2
  let r ← couplingReport tos par prP pr1 pr2 lrP lr1 lr2
  .ok (par, r)

end Verif
