import Verif.Spec.Log
/-
The lines of an arbitrary text, as a program gets them that calls `getline` again and again without looking whether it
succeeds, and what may be found in the place of a row of a coordinate table.
-/
namespace Verif.Readers

/-- The lines of a text: what is before, between and after its line ends. There is always at least one; it is empty after a
final line end. -/
def textLines : Str → List Str
  | [] => [[]]
  | c :: t =>
    if c = '\n' then [] :: textLines t
    else match textLines t with
      | [] => [[c]]
      | l :: ls => (c :: l) :: ls

/-- Line number `n` (from 0); beyond the last one, the last one again. -/
def lineAt (t : Str) (n : Nat) : Str := (textLines t).getD n ((textLines t).getLastD [])

end Verif.Readers

namespace Verif.Log
open Readers

variable {α : Type} [Mul α] [Num α]

/-- A row of a coordinate table, whatever position it lists. -/
def GoodRow (α : Type) [Mul α] [Num α] (l : Str) : Prop := ∃ x y z : α, CoordRow (l, x, y, z)

/-- A line that is neither a row nor the ruler below the table: the first of its words number four, five and six that is
not as it should be is missing (`out_of_range`) or no number (the exception `stod` throws for it). -/
def BadRow (α : Type) [Mul α] [Num α] (l : Str) (e : Exn) : Prop :=
  IsLine l ∧ ¬ Contains l (List.replicate 69 '-') ∧ ∃ ws, Strings.Layout l ws ∧ ∃ k, 3 ≤ k ∧ k ≤ 5 ∧
    (∀ j, 3 ≤ j → j < k → ∃ w v, ws[j]? = some w ∧ (Num.stod w : Res α) = .ok v) ∧
    ((ws[k]? = none ∧ e = .outOfRange) ∨ ∃ w, ws[k]? = some w ∧ (Num.stod w : Res α) = .throw e)

/-- The text of a log file up to and including a line that announces coordinates, and what follows. -/
def CoordFile (text : Str) (t : Str) : Prop :=
  ∃ before header, (∀ l ∈ before, Plain l) ∧ CoordHeader header ∧
    (text = unlines before ++ (header ++ '\n' :: t) ∨ (text = unlines before ++ header ∧ t = []))

end Verif.Log
