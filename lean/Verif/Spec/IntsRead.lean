import Verif.Spec.LogLines
/-
Specification vocabulary for C133: texts that the readers can be given without an `int` overflowing while they read.
-/
namespace Verif.Ints
open Readers LogLines

/-- The line starts with the number `n` (as `stoi` understands it). -/
def StartsWith (n : Int) (l : Str) : Prop := ∃ w ws, words l = w :: ws ∧ stoi w = .ok n

/-- The text of a log file: not too long, and without 46341 lines in a row that start with the numbers 1, 2, 3, ..., as the rows of an overlap
matrix do. -/
structure ModestLog (t : Str) : Prop where
  size : t.length ≤ 700000000
  rows : ¬ ∃ i : Nat, ∀ k : Nat, k < 46341 → StartsWith (k + 1) (lineAt t (i + k))

/-- The text of a pun file: not too long, and no table of coefficients, wherever it may start, with more than 46340 orbitals or an orbital of more
than 46340 coefficients. -/
structure ModestPun (α : Type) [Mul α] [Num α] (t : Str) : Prop where
  size : t.length ≤ 700000000
  tables : ∀ spin i e (rows : List (List α)), Pun.TableAt t spin none i rows e → rows.length ≤ 46340 ∧ ∀ row ∈ rows, row.length ≤ 46340

end Verif.Ints
