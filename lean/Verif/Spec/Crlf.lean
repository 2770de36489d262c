import Verif.Spec.LogLines
import Verif.PunReader
/-
The same file with the line ends of another system: a carriage return before each line feed, as files have that were written or edited on
Windows, or sent in text mode.
-/
namespace Verif.Crlf
open Readers
open LogLines (words Announces)

/-- The text with line ends of two characters. -/
def crlf (t : Str) : Str := t.flatMap fun c => if c = '\n' then ['\r', '\n'] else [c]

/-- The tables of overlaps and of populations are more than a title: the first row (after the title and one more line) ends with a line
end, and that of a population table has at least four words. -/
structure Ordinary (t : Str) : Prop where
  overlap : ∀ i, Announces (lineAt t i) .overlap → i + 3 < (textLines t).length
  population : ∀ i, Announces (lineAt t i) .population → i + 3 < (textLines t).length ∧ 4 ≤ (words (lineAt t (i + 2))).length

/-- There are no such tables. -/
structure NeitherTable (t : Str) : Prop where
  overlap : ∀ i, ¬ Announces (lineAt t i) .overlap
  population : ∀ i, ¬ Announces (lineAt t i) .population

/-- No line of the text lacks exactly one character to be made of fields of 15 characters. (Gaussian writes up to five fields of 15
characters on a line.) -/
def NoneShort (t : Str) : Prop := ∀ j, (lineAt t j).length % 15 ≠ 14

/-- The files with the line ends of file `name` changed. -/
def changed (files : Str → Option Str) (name : Str) : Str → Option Str := fun f => if f = name then (files f).map crlf else files f

/-- Two readers of log files give the same. -/
structure SameLog {α : Type} [Mul α] [Num α] (D D' : LogData α) : Prop where
  coords : D'.getCoords = D.getCoords
  energies : ∀ spin : Log.Spin, D'.getOE spin.name = D.getOE spin.name
  homo : ∀ spin : Log.Spin, D'.getHOMOLevel spin.name = D.getHOMOLevel spin.name
  overlap : D'.getOverlapMatrix = D.getOverlapMatrix
  functions : D'.getBasisFuncCount = D.getBasisFuncCount

/-- Two readers of punch files give the same. -/
structure SamePun {α : Type} (D D' : PunData α) : Prop where
  coefs : ∀ spin : Log.Spin, D'.getCoefsMatrix spin.name = D.getCoefsMatrix spin.name
  shell : D'.restrictedShell = D.restrictedShell

end Verif.Crlf
