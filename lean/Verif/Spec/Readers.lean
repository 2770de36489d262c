import Verif.Spec.Chars
import Verif.Readers
import Verif.Spec.Strings
/-
Specification vocabulary for reading text files.
-/
namespace Verif.Readers

/-- A text made of lines, each of them ended by `'\n'`. -/
def unlines (ls : List Str) : Str := ls.flatMap (fun l => l ++ ['\n'])

/-- A single line. -/
def IsLine (l : Str) : Prop := '\n' ∉ l

/-- `sub` occurs in `l`. -/
def Contains (l sub : Str) : Prop := ∃ x y, l = x ++ sub ++ y

/-- The line does not end in white space. -/
def NoTrail (l : Str) : Prop := ∀ c, l.getLast? = some c → White c = false

/-- The line consists of the given words, separated by white space, with none at the end. -/
def Words (l : Str) (ws : List Str) : Prop := Strings.Layout l ws ∧ NoTrail l

/-- A computation that may take `fuel` steps ends with the outcome `out`, once it may take enough of them. -/
def Ends {β : Type} (f : Nat → Res β) (out : Res β) : Prop := out ≠ .diverge ∧ ∃ N, ∀ fuel, N ≤ fuel → f fuel = out

/-- It never ends, however many steps it may take. -/
def Hangs {β : Type} (f : Nat → Res β) : Prop := ∀ fuel, f fuel = .diverge

/-- A computation that ends when it may take `B` steps, or does not end at all: no one need wait longer. -/
def Decided {β : Type} (B : Nat) (f : Nat → Res β) : Prop := Ends f (f B) ∨ Hangs f

/-- The file name, without its directory and white space at its end, is a word without a dot followed by `ext`. -/
def PlainName (ext name : Str) : Prop :=
  ∃ dir x trail, name = dir ++ x ++ ext ++ trail ∧ (dir = [] ∨ ∃ d, dir = d ++ ['/']) ∧ '/' ∉ x ∧ '.' ∉ x ∧
    ∀ c ∈ trail, White c = true

end Verif.Readers
