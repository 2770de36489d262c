import Verif.Spec.Chars
import Verif.Spec.Readers
/-
What a Gaussian log file contains, as far as it matters here: plain lines, and tables of coordinates, orbital energies,
overlaps and gross orbital populations. `α` stands for `double`; how a number is written is left to `stod`, `atof` and
`pow(10, ·)`.
-/
namespace Verif.Log
open Readers

variable {α : Type} [Mul α] [Num α]

/-- The texts that announce a table. -/
def announcements : List Str :=
  [(lit "     Gross orbital populations:"), (lit "Center     Atomic      Atomic"), (lit "Center     Atomic     Atomic"),
   (lit " Alpha  occ. eigenvalues --"), (lit "  Beta  occ. eigenvalues --"), (lit " *** Overlap ***")]

/-- A line that announces no table. -/
def Plain (l : Str) : Prop := IsLine l ∧ ∀ p ∈ announcements, ¬ Contains l p

/-! ### coordinates -/

/-- A line of a coordinate table, with the position it lists: words number four, five and six are x, y and z. -/
def CoordRow (row : Str × α × α × α) : Prop :=
  IsLine row.1 ∧ ¬ Contains row.1 (List.replicate 69 '-') ∧ ∃ a b c x y z more,
    Strings.Layout row.1 (a :: b :: c :: x :: y :: z :: more) ∧
    Num.stod x = .ok row.2.1 ∧ Num.stod y = .ok row.2.2.1 ∧ Num.stod z = .ok row.2.2.2

/-- The line above a coordinate table. -/
def CoordHeader (l : Str) : Prop :=
  IsLine l ∧ (Contains l (lit "Center     Atomic      Atomic") ∨ Contains l (lit "Center     Atomic     Atomic")) ∧
    ¬ Contains l (lit "     Gross orbital populations:")

/-- The line below a coordinate table. -/
def Ruler (l : Str) : Prop := IsLine l ∧ Contains l (List.replicate 69 '-')

/-! ### orbital energies -/

inductive Spin
  | alpha
  | beta
deriving DecidableEq

/-- The name of a spin in the interface. -/
def Spin.name : Spin → Str
  | .alpha => (lit "Alpha")
  | .beta => (lit "Beta")

/-- The text that announces energies. -/
def energyHeader : Spin → Str
  | .alpha => (lit " Alpha  occ. eigenvalues --")
  | .beta => (lit "  Beta  occ. eigenvalues --")

/-- How a line of occupied or of virtual orbitals starts. -/
def energyStart : Spin → Bool → Str
  | .alpha, true => (lit " Alpha  occ. eigenvalues -- ")
  | .alpha, false => (lit " Alpha virt. eigenvalues -- ")
  | .beta, true => (lit "  Beta  occ. eigenvalues -- ")
  | .beta, false => (lit "  Beta virt. eigenvalues -- ")

/-- A printed energy: an optional minus sign, then digits, points or (on overflow) asterisks. -/
def EnergyText (t : Str) : Prop :=
  ∃ sign body, t = sign ++ body ∧ (sign = [] ∨ sign = ['-']) ∧ body ≠ [] ∧
    ∀ c ∈ body, Digit c = true ∨ c = '.' ∨ c = '*'

/-- The energies of a line, each after some blanks; no blank is needed in front of a minus sign (nor of the first energy,
the start of the line ending in a blank). -/
def EnergyFields (fields : List (Str × Str)) : Prop :=
  (∀ p ∈ fields, (∀ c ∈ p.1, c = ' ') ∧ EnergyText p.2) ∧
    ∀ p ∈ fields.tail, p.1 ≠ [] ∨ p.2.head? = some '-'

/-- A line of energies: of occupied orbitals?, and the energies. -/
abbrev EnergyLine := Bool × List (Str × Str)

/-- Its text. -/
def EnergyLine.text (spin : Spin) (e : EnergyLine) : Str :=
  energyStart spin e.1 ++ e.2.flatMap (fun p => p.1 ++ p.2)

/-- The energies listed by some lines, in order. -/
def energies (es : List EnergyLine) : List Str := es.flatMap (fun e => e.2.map (·.2))

/-- How many of them are occupied. -/
def occupied (es : List EnergyLine) : Nat := (energies (es.filter (·.1))).length

/-- A table of energies: at most five per line, the first line lists occupied orbitals. -/
def EnergyTable (es : List EnergyLine) : Prop :=
  (∀ e ∈ es, EnergyFields e.2 ∧ e.2.length ≤ 5) ∧ ∃ e es', es = e :: es' ∧ e.1 = true

/-- A line that belongs to no table of energies of that spin. -/
def NoEnergyLine (spin : Spin) (l : Str) : Prop :=
  ¬ Contains l ((lit " ") ++ spin.name ++ (lit "  occ. eigenvalues -- ")) ∧
    ¬ Contains l ((lit " ") ++ spin.name ++ (lit " virt. eigenvalues -- "))

/-! ### overlaps -/

/-- `t` is a number in Fortran notation: mantissa, `D`, exponent. (`Fits`: no `std::string` is longer.) -/
def FortranNum (t : Str) (v : α) : Prop :=
  Strings.Fits t ∧ ∃ m e a b, t = m ++ 'D' :: e ∧ 'D' ∉ m ∧ Num.stod m = .ok a ∧ Num.stod e = .ok b ∧ v = a * Num.pow10 b

/-- `l` is the line of row `i` in block number `k` (from 0): the row number, then the entries in columns `5k+1, ...`, up to
five of them and up to the diagonal. -/
def OverlapRow (S : Nat → Nat → α) (k i : Nat) (l : Str) : Prop :=
  IsLine l ∧ ∃ ws, Words l (Nat.toDigits 10 i :: ws) ∧ ws.length = min 5 (i - 5 * k) ∧
    ∀ q (h : q < ws.length), FortranNum ws[q] (S i (5 * k + 1 + q))

/-- Block number `k`: a line with the column numbers, then a line for each row from `5k+1` to `n`. -/
def OverlapBlock (n : Nat) (S : Nat → Nat → α) (k : Nat) (b : Str × List Str) : Prop :=
  IsLine b.1 ∧ (∃ ws, Strings.Layout b.1 (Nat.toDigits 10 (5 * k + 1) :: ws)) ∧ b.2.length = n - 5 * k ∧
    ∀ q (h : q < b.2.length), OverlapRow S k (5 * k + 1 + q) b.2[q]

/-- The whole table: as many blocks as are needed for `n` columns. -/
def OverlapTable (n : Nat) (S : Nat → Nat → α) (blocks : List (Str × List Str)) : Prop :=
  1 ≤ n ∧ n < 2 ^ 31 - 1 ∧ blocks.length = (n + 4) / 5 ∧ ∀ k (h : k < blocks.length), OverlapBlock n S k blocks[k]

/-! ### gross orbital populations -/

/-- A word made of letters. -/
def Letters (s : Str) : Prop := s ≠ [] ∧ ∀ c ∈ s, Letter c = true

/-- The line below the table. -/
def PopulationEnd (l : Str) : Prop := IsLine l ∧ ∃ more, l = (lit "         Condensed to atoms") ++ more

/-- A basis function of an atom: the text of its line, its label and its populations. -/
structure Fn (α : Type) where
  text : Str
  label : Str
  vals : List α

/-- An atom: its element and its functions. -/
structure Atom (α : Type) where
  elem : Str
  first : Fn α
  more : List (Fn α)

/-- The functions of an atom. -/
def Atom.fns (a : Atom α) : List (Fn α) := a.first :: a.more

/-- The words of some populations: numbers, none of them made of letters only (as `nan` is). -/
def Populations (ws : List Str) (vals : List α) : Prop :=
  ws.length = vals.length ∧ ∀ q (h : q < ws.length) (h' : q < vals.length), Num.stod ws[q] = .ok vals[q] ∧ ¬ Letters ws[q]

/-- The line of the first function of an atom: number of the function, number of the atom, element, label, populations. The
element is in columns 10 and 11. -/
def FirstRow (elem : Str) (f : Fn α) : Prop :=
  IsLine f.text ∧ ¬ Contains f.text (lit "         Condensed to atoms") ∧ Letters elem ∧
    (∃ no atom ws, Words f.text (no :: atom :: elem :: f.label :: ws) ∧ Populations ws f.vals) ∧
    ∃ left a b right, f.text = left ++ a :: b :: right ∧ left.length = 9 ∧
      ((Letter a = true ∧ Letter b = true) ∨ (Letter a = true ∧ b = ' ') ∨ (a = ' ' ∧ Letter b = true))

/-- The line of any further function: number of the function, label, populations. Columns 10 and 11 are empty. -/
def FurtherRow (f : Fn α) : Prop :=
  IsLine f.text ∧ ¬ Contains f.text (lit "         Condensed to atoms") ∧
    (∃ no ws, Words f.text (no :: f.label :: ws) ∧ ws ≠ [] ∧ Populations ws f.vals) ∧
    ∃ left right, f.text = left ++ ' ' :: ' ' :: right ∧ left.length = 9

/-- The lines of an atom. -/
def AtomRows (a : Atom α) : Prop := FirstRow a.elem a.first ∧ ∀ f ∈ a.more, FurtherRow f

end Verif.Log
