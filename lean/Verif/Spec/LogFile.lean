import Verif.Spec.Log
import Verif.Spec.Args
/-
A whole Gaussian log file: a sequence of plain lines and tables, and what it says.
-/
namespace Verif.Log
open Readers

/-- A piece of a log file. -/
inductive Piece (α : Type)
  /-- a line of no interest -/
  | plain (l : Str)
  /-- a coordinate table: the line above it, two more lines, the rows, the line below it -/
  | coords (header l2 l3 : Str) (rows : List (Str × α × α × α)) (ruler : Str)
  /-- a table of orbital energies -/
  | energies (spin : Spin) (es : List EnergyLine)
  /-- an overlap table: the line above it, its blocks, and the line after it -/
  | overlap (header : Str) (n : Nat) (S : Nat → Nat → α) (blocks : List (Str × List Str)) (next : Str)
  /-- a table of gross orbital populations: the line above it, one more line, the atoms, the line below it -/
  | population (header l2 : Str) (atoms : List (Atom α)) (last : Str)

variable {α : Type}

/-- Its lines. -/
def Piece.lines : Piece α → List Str
  | .plain l => [l]
  | .coords header l2 l3 rows ruler => header :: l2 :: l3 :: (rows.map (·.1) ++ [ruler])
  | .energies spin es => es.map (EnergyLine.text spin)
  | .overlap header _ _ blocks next => header :: (blocks.flatMap (fun b => b.1 :: b.2) ++ [next])
  | .population header l2 atoms last => header :: l2 :: (atoms.flatMap (fun a => a.fns.map (·.text)) ++ [last])

/-- The piece is well formed. The line after an overlap table matters if the table has one block only: its first word must be
an integer that is no row number, or it must be blank. -/
def Piece.Ok [Mul α] [Num α] : Piece α → Prop
  | .plain l => Plain l
  | .coords header l2 l3 rows ruler => CoordHeader header ∧ IsLine l2 ∧ IsLine l3 ∧ (∀ r ∈ rows, CoordRow r) ∧ Ruler ruler
  | .energies _ es => EnergyTable es
  | .overlap header n S blocks next => IsLine header ∧ Contains header (lit " *** Overlap ***") ∧
      (∀ p ∈ announcements, p ≠ (lit " *** Overlap ***") → ¬ Contains header p) ∧ OverlapTable n S blocks ∧ IsLine next ∧
      (5 < n ∨ Strings.Layout next [] ∨
        ∃ w ws i, Strings.Layout next (w :: ws) ∧ Args.IntText w i ∧ -2 ^ 31 ≤ i ∧ i < 2 ^ 31 ∧ i ≠ (n : Int) + 1)
  | .population header l2 atoms last => IsLine header ∧ Contains header (lit "     Gross orbital populations:") ∧ IsLine l2 ∧
      atoms ≠ [] ∧ (∀ a ∈ atoms, AtomRows a) ∧ PopulationEnd last

/-- A log file made of such pieces, perhaps followed by a plain line without an end. A table of energies is not followed by a
line that looks as if it belonged to it. -/
def LogFile [Mul α] [Num α] (ps : List (Piece α)) (tail : Str) : Prop :=
  (∀ p ∈ ps, p.Ok) ∧ (tail = [] ∨ Plain tail) ∧
    ∀ before spin es following, ps = before ++ .energies spin es :: following →
      ∀ l, (following.flatMap Piece.lines ++ (if tail = [] then [] else [tail])).head? = some l → NoEnergyLine spin l

/-- Its text. -/
def logText (ps : List (Piece α)) (tail : Str) : Str := unlines (ps.flatMap Piece.lines) ++ tail

/-! ### what the file says -/

/-- The last table of energies of the given spin. -/
def lastEnergies (spin : Spin) : List (Piece α) → Option (List EnergyLine)
  | [] => none
  | .energies s es :: ps => if s = spin then some ((lastEnergies spin ps).getD es) else lastEnergies spin ps
  | _ :: ps => lastEnergies spin ps

/-- The positions in the last coordinate table. -/
def lastCoords : List (Piece α) → Option (List (α × α × α))
  | [] => none
  | .coords _ _ _ rows _ :: ps => some ((lastCoords ps).getD (rows.map (·.2)))
  | _ :: ps => lastCoords ps

/-- The size and the entries of the last overlap table. -/
def lastOverlap : List (Piece α) → Option (Nat × (Nat → Nat → α))
  | [] => none
  | .overlap _ n S _ _ :: ps => some ((lastOverlap ps).getD (n, S))
  | _ :: ps => lastOverlap ps

/-- The tables of populations. -/
def populations : List (Piece α) → List (List (Atom α))
  | [] => []
  | .population _ _ atoms _ :: ps => atoms :: populations ps
  | _ :: ps => populations ps

/-! ### files that need not be well formed -/

/-- What makes sure that reading a log file ends: a line that announces energies has a blank after the two hyphens, and three
lines or more below a line that announces populations the end of that table is found. -/
def LogGuards (ls : List Str) : Prop :=
  (∀ l ∈ ls, ∀ spin : Spin, Contains l ((lit " ") ++ spin.name ++ (lit "  occ. eigenvalues --")) →
    Contains l ((lit " ") ++ spin.name ++ (lit "  occ. eigenvalues -- "))) ∧
  ∀ before l after, ls = before ++ l :: after → Contains l (lit "     Gross orbital populations:") →
    ∃ e ∈ after.drop 2, PopulationEnd e

end Verif.Log
