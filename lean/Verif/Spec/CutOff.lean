import Verif.Spec.LogLines
/-
Files that end too early: the program that wrote them was stopped, the disk was full, or they were copied in part. And how far a file is
read before a given line.
-/
namespace Verif.CutOff
open Readers

/-- `t'` is what is left of `t` when it is cut off in line `m`, of which `p` is left (all of it if only the line end is missing; nothing if
the cut is right after a line end). -/
structure CutAt (t t' : Str) (m : Nat) (p : Str) : Prop where
  line : m < (textLines t).length
  left : textLines t' = (textLines t).take m ++ [p]
  part : p <+: lineAt t m

end Verif.CutOff

namespace Verif.Pun
open Readers Log

variable {α : Type} [Mul α] [Num α]

/-- Reading from line `i` on, with the tables `d` known, comes to line `j`, with the tables `d'` known, and there is not within a table. -/
inductive Upto (t : Str) : Nat → Known α → Nat → Known α → Prop
  | here {i d} : Upto t i d i d
  | skip {i d j d'} : ¬ NoLine t i → (∀ spin, ¬ Announces (lineAt t i) spin) → Upto t (i + 1) d j d' → Upto t i d j d'
  | table {i d j d' spin rows e} : ¬ NoLine t i → Announces (lineAt t i) spin → TableAt t spin none (i + 1) rows e → SameLength rows →
      Upto t e (fun s => if s = spin then some rows else d s) j d' → Upto t i d j d'

/-- In a table, reading comes from line `i` to line `j`, on which another orbital begins. `rows`: the orbitals between; `count`, `count'`:
the number of coefficients of the orbital before. -/
inductive Orbitals (t : Str) (spin : Spin) : Option Nat → Nat → List (List α) → Option Nat → Nat → Prop
  | here {count i} : Orbitals t spin count i [] count i
  | more {count i k count' j} {row : List α} {rows} : RowAt t count i k row → Contains (rowLine t i k) spin.name →
      Orbitals t spin (some row.length) (i + k + 1) rows count' j → Orbitals t spin count i (row :: rows) count' j

end Verif.Pun

namespace Verif.LogLines
open Readers Log
open Pun (NoLine)

variable {α : Type} [Mul α] [Num α]

/-- The same for log files. -/
inductive Upto (t : Str) : Nat → Known α → Nat → Known α → Prop
  | here {i d} : Upto t i d i d
  | skip {i d j d'} : ¬ NoLine t i → (∀ k, ¬ Announces (lineAt t i) k) → Upto t (i + 1) d j d' → Upto t i d j d'
  | table {i k f e d j d'} : ¬ NoLine t i → Announces (lineAt t i) k → Table t i k f e → Upto t e (f d) j d' → Upto t i d j d'

/-- Overlaps as a lower triangle: in blocks of five columns, none beyond the diagonal. -/
def Lower (vals : Nat → Nat → List α) : Prop := ∀ b r, (vals b r).length ≤ 5 ∧ (vals b r).length ≤ r - 5 * b

/-- The line with the entry in row `r` and column `c`, when the title is on line `i` and the table has `n` rows. -/
def lineOf (i n r c : Nat) : Nat :=
  let b := (min r c - 1) / 5
  i + 1 + blockLine n b + (max r c - 5 * b - 1)

end Verif.LogLines
