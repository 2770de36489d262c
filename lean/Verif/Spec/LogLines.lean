import Verif.Spec.PunLines
import Verif.Spec.Energies
import Verif.LogReader
/-
What a log file says, whatever is in it: an arbitrary text, as numbered lines. `rowLine t i j` is line `i + j` as a program gets it that
started to read with line `i` and does not look whether there is another line. (`stoi`, `stod`, `atof` and `pow` are those of the C++
library; C67 says what `stoi` does.)
-/
namespace Verif.LogLines
open Readers Log
open Pun (rowLine NoLine strip)

/-! ### words -/

/-- The words of a line. -/
def words : Str → List Str
  | [] => []
  | c :: s =>
    if White c then words s
    else if s.head?.all White then [c] :: words s
    else match words s with
      | [] => [[c]]
      | w :: ws => (c :: w) :: ws

/-- What a program gets that has taken `k` words from a line and goes on until nothing is left: the other words and, if the line ends in
white space, an empty one. (If there are not even `k` words: nothing.) -/
def beyond (k : Nat) (l : Str) : List Str :=
  if (words l).length < k then [] else (words l).drop k ++ if l.getLast?.any White then [[]] else []

/-- How reading can fail. -/
inductive Fault
  | throws (e : Exn)
  | exits (status : Int)

/-- The outcome that is. -/
def Fault.out {β : Type} : Fault → Res β
  | .throws e => .throw e
  | .exits c => .exit c

variable {α : Type} [Mul α] [Num α]

/-! ### coordinates, announced by line `i` -/

/-- Word number `k` (from 0) of a line, as a number. -/
def numberAt (l : Str) (k : Nat) : Res α :=
  match (words l)[k]? with
  | some w => Num.stod w
  | none => .throw .outOfRange

/-- The position a line lists: its words number four, five and six. -/
def position (l : Str) : Res (α × α × α) := do
  let x ← numberAt l 3
  let y ← numberAt l 4
  let z ← numberAt l 5
  .ok (x, y, z)

/-- The line ends the table. -/
def IsRuler (l : Str) : Prop := Contains l (List.replicate 69 '-')

/-- The line of atom number `j` (from 0): two lines are skipped. -/
def coordLine (t : Str) (i j : Nat) : Str := rowLine t (i + 1) (j + 2)

/-- The first `k` atoms. -/
def CoordRows (t : Str) (i k : Nat) (pos : Nat → α × α × α) : Prop :=
  ∀ j < k, ¬ IsRuler (coordLine t i j) ∧ position (coordLine t i j) = .ok (pos j)

/-! ### energies, the first ones on line `i` -/

/-- The line lists energies of occupied orbitals. -/
def IsOcc (spin : Spin) (l : Str) : Prop := Contains l ((lit " ") ++ spin.name ++ (lit "  occ. eigenvalues -- "))

/-- The line lists energies of virtual orbitals. -/
def IsVirt (spin : Spin) (l : Str) : Prop := Contains l ((lit " ") ++ spin.name ++ (lit " virt. eigenvalues -- "))

/-- The energies on a line: its words from the fifth on, cut before minus signs unless there are nine words. -/
def lineEnergies (l : Str) : List α :=
  (if (words l).length = 9 then (words l).drop 4 else ((words l).drop 4).flatMap cutMinus).map Num.atof

/-- The energies on lines `i`, ..., `i + k - 1`. -/
def energiesOn (t : Str) (i k : Nat) : List α := (List.range k).flatMap (fun j => lineEnergies (lineAt t (i + j)))

open Classical in
/-- How many of them are of occupied orbitals. -/
noncomputable def occupiedOn (α : Type) [Mul α] [Num α] (t : Str) (spin : Spin) (i k : Nat) : Nat :=
  ((List.range k).map (fun j => if IsOcc spin (lineAt t (i + j)) then (lineEnergies (lineAt t (i + j)) : List α).length else 0)).sum

/-- The table of energies consists of lines `i`, ..., `i + k - 1`. -/
def EnergyLines (t : Str) (spin : Spin) (i k : Nat) : Prop :=
  (∀ j < k, ¬ NoLine t (i + j) ∧ (IsOcc spin (lineAt t (i + j)) ∨ IsVirt spin (lineAt t (i + j)))) ∧
    (NoLine t (i + k) ∨ (¬ IsOcc spin (lineAt t (i + k)) ∧ ¬ IsVirt spin (lineAt t (i + k))))

/-! ### overlaps, announced by line `i` -/

/-- A number in Fortran notation: mantissa, `D`, exponent. -/
def fortranNumber (s : Str) : Res α := do
  let a ← Num.stod (s.takeWhile (· ≠ 'D'))
  let b ← Num.stod ((s.dropWhile (· ≠ 'D')).drop 1)
  .ok (a * Num.pow10 b)

/-- The number at the start of line `j` (from 0; that line is skipped): its first word; if it has none, what was found on the line
before. -/
def numberText (t : Str) (i : Nat) : Nat → Str
  | 0 => []
  | j + 1 => (words (rowLine t (i + 1) (j + 1))).headD (numberText t i j)

/-- There are `n` rows in the first block: the lines that start with 1, 2, ... -/
def Counted (t : Str) (i n : Nat) : Prop := ∀ j < n, stoi (numberText t i (j + 1)) = .ok ((j : Int) + 1)

/-- The line on which block `b` (from 0) begins, when there are `n` rows: row `r` is in the first blocks, down to the one with
its diagonal, and a line precedes each block. -/
def blockLine (n : Nat) : Nat → Nat
  | 0 => 1
  | b + 1 => blockLine n b + (n - 5 * b) + 1

/-- What follows the number on the line of row `r` (from 1) in block `b`. -/
def rowItems (t : Str) (i n b r : Nat) : List Str := beyond 1 (rowLine t (i + 1) (blockLine n b + (r - 5 * b - 1)))

/-- Row `r` of block `b` is as it should be: numbers, none of them beyond the last column. -/
def RowFine (t : Str) (i n b r : Nat) (vals : List α) : Prop :=
  (rowItems t i n b r).mapM fortranNumber = .ok vals ∧ 5 * b + vals.length ≤ n

/-- What the table lists, in order: row, column, value. -/
def cells (n : Nat) (vals : Nat → Nat → List α) : List (Nat × Nat × α) :=
  (List.range ((n + 4) / 5)).flatMap fun b => (List.range (n - 5 * b)).flatMap fun q =>
    (vals b (5 * b + q + 1)).zipIdx.map fun v => (5 * b + q + 1, 5 * b + v.2 + 1, v.1)

/-- The entry in row `r` and column `c`: what is listed last for `(r, c)` or `(c, r)`, and 0 if nothing is. -/
def entry [Zero α] (cs : List (Nat × Nat × α)) (r c : Nat) : α :=
  match cs.reverse.find? (fun x => (x.1 = r ∧ x.2.1 = c) ∨ (x.1 = c ∧ x.2.1 = r)) with
  | some x => x.2.2
  | none => 0

/-- The first block ends after `n` rows, all of them numbers. -/
def FirstBlock (t : Str) (i n : Nat) (vals : Nat → List α) : Prop :=
  Counted t i n ∧ (∀ r, 1 ≤ r → r ≤ n → (rowItems t i n 0 r).mapM fortranNumber = .ok (vals r)) ∧
    ∃ z, stoi (numberText t i (n + 1)) = .ok z ∧ z ≠ (n : Int) + 1

/-- A table of `n` rows and columns. -/
def OverlapAt (t : Str) (i n : Nat) (vals : Nat → Nat → List α) : Prop :=
  1 ≤ n ∧ FirstBlock t i n (vals 0) ∧ ∀ b r, b < (n + 4) / 5 → 5 * b < r → r ≤ n → RowFine t i n b r (vals b r)

/-- What can go wrong. -/
inductive OverlapFault (α : Type) [Mul α] [Num α] (t : Str) (i : Nat) : Fault → Prop
  /-- The line after row `n` does not begin with a number. -/
  | number {n e} {vals : Nat → List α} : Counted t i n → (∀ r, 1 ≤ r → r ≤ n → (rowItems t i n 0 r).mapM fortranNumber = .ok (vals r)) →
      stoi (numberText t i (n + 1)) = .throw e → OverlapFault α t i (.throws e)
  /-- Something in row `n + 1` of the first block is no number. -/
  | value {n e} {vals : Nat → List α} : Counted t i (n + 1) → (∀ r, 1 ≤ r → r ≤ n → (rowItems t i n 0 r).mapM fortranNumber = .ok (vals r)) →
      ((rowItems t i n 0 (n + 1)).mapM fortranNumber : Res (List α)) = .throw e → OverlapFault α t i (.throws e)
  /-- There are no rows. -/
  | empty {vals : Nat → List α} : FirstBlock t i 0 vals → OverlapFault α t i (.exits 1)
  /-- A row in the first block has more entries than there are rows. -/
  | wide {n r} {vals : Nat → List α} : 1 ≤ n → FirstBlock t i n vals → 1 ≤ r → r ≤ n → n < (vals r).length → OverlapFault α t i (.exits 1)
  /-- In a later block, something up to one entry beyond the last column is no number. -/
  | laterValue {n b r e} {vals : Nat → Nat → List α} : FirstBlock t i n (vals 0) → 1 ≤ b → 5 * b < r → r ≤ n →
      (∀ b' r', b' < b ∨ (b' = b ∧ r' < r) → 5 * b' < r' → r' ≤ n → RowFine t i n b' r' (vals b' r')) →
      (((rowItems t i n b r).take (n - 5 * b + 1)).mapM fortranNumber : Res (List α)) = .throw e → OverlapFault α t i (.throws e)
  /-- In a later block, there are entries beyond the last column. -/
  | laterWide {n b r} {vals : Nat → Nat → List α} {row : List α} : FirstBlock t i n (vals 0) → 1 ≤ b → 5 * b < r → r ≤ n →
      (∀ b' r', b' < b ∨ (b' = b ∧ r' < r) → 5 * b' < r' → r' ≤ n → RowFine t i n b' r' (vals b' r')) →
      ((rowItems t i n b r).take (n - 5 * b + 1)).mapM fortranNumber = .ok row → n < 5 * b + row.length → OverlapFault α t i (.exits 1)

/-! ### gross orbital populations, announced by line `i` -/

/-- The line ends the table. -/
def IsEnd (l : Str) : Prop := Contains l (lit "         Condensed to atoms")

/-- Line `j` of the table; the first one is skipped. -/
def popLine (t : Str) (i j : Nat) : Str := rowLine t (i + 1) j

/-- The numbers on a line, after `k` words. -/
def numbers (α : Type) [Mul α] [Num α] (k : Nat) (l : Str) : Res (List α) := (beyond k l).mapM Num.stod

/-- The element on the line of an atom's first function: the third word; if there is none, the second. -/
def elementOn (l : Str) : Str := (((words l).drop 1).take 2).getLastD []

/-- The label on that line: the fourth word. -/
def firstLabel (l : Str) : Str := (words l)[3]?.getD []

/-- Columns 10 and 11. -/
def columns (l : Str) : Str := strip ((l.drop 9).take 2)

/-- The label on the line of a further function: the second word; if there is none, the label before. -/
def nextLabel (label l : Str) : Str := (words l)[1]?.getD label

/-- What is taken for the element on the line after a further function: its third word; if there is none, its last one; if there is
none, what was taken before. It is one if it is made of letters. -/
def nextMark (mark l : Str) : Str := strip (((words l).take 3).getLastD mark)

/-- Further functions of an atom, from line `j` (on which `mark` is taken for the element) on, after a function `label`: their labels,
and the first line that lists none. -/
inductive Further (α : Type) [Mul α] [Num α] (t : Str) (i : Nat) : Str → Str → Nat → List Str → Nat → Prop
  | none {label mark j} : Letters mark → Further α t i label mark j [] j
  | last {label mark j} {vals : List α} : ¬ Letters mark → numbers α 2 (popLine t i j) = .ok vals → IsEnd (popLine t i (j + 1)) →
      Further α t i label mark j [nextLabel label (popLine t i j)] (j + 1)
  | more {label mark j ls k} {vals : List α} : ¬ Letters mark → numbers α 2 (popLine t i j) = .ok vals → ¬ IsEnd (popLine t i (j + 1)) →
      Further α t i (nextLabel label (popLine t i j)) (nextMark mark (popLine t i (j + 1))) (j + 1) ls k →
      Further α t i label mark j (nextLabel label (popLine t i j) :: ls) k

/-- The same with a line that lists something that is no number. -/
inductive BadFurther (α : Type) [Mul α] [Num α] (t : Str) (i : Nat) : Str → Str → Nat → Exn → Prop
  | here {label mark j e} : ¬ Letters mark → numbers α 2 (popLine t i j) = .throw e → BadFurther α t i label mark j e
  | later {label mark j e} {vals : List α} : ¬ Letters mark → numbers α 2 (popLine t i j) = .ok vals → ¬ IsEnd (popLine t i (j + 1)) →
      BadFurther α t i (nextLabel label (popLine t i j)) (nextMark mark (popLine t i (j + 1))) (j + 1) e → BadFurther α t i label mark j e

/-- There are at least `n` further functions, and then another one or something that is no number. -/
inductive OpenFurther (α : Type) [Mul α] [Num α] (t : Str) (i : Nat) : Str → Str → Nat → Nat → Prop
  | zero {label mark j} : OpenFurther α t i label mark j 0
  | succ {label mark j n} {vals : List α} : ¬ Letters mark → numbers α 2 (popLine t i j) = .ok vals → ¬ IsEnd (popLine t i (j + 1)) →
      OpenFurther α t i (nextLabel label (popLine t i j)) (nextMark mark (popLine t i (j + 1))) (j + 1) n → OpenFurther α t i label mark j (n + 1)

/-- The first function of an atom on line `j`. -/
def FirstFn (α : Type) [Mul α] [Num α] (t : Str) (i j : Nat) : Prop :=
  (∃ vals, numbers α 4 (popLine t i j) = .ok vals) ∧ 10 < (popLine t i (j + 1)).length

/-- An atom from line `j` to before line `k`: its element and the labels of its functions. -/
def AtomAt (α : Type) [Mul α] [Num α] (t : Str) (i j : Nat) (elem : Str) (labels : List Str) (k : Nat) : Prop :=
  FirstFn α t i j ∧ elem = elementOn (popLine t i j) ∧ ∃ ls, labels = firstLabel (popLine t i j) :: ls ∧
    Further α t i (firstLabel (popLine t i j)) (columns (popLine t i (j + 1))) (j + 1) ls k

/-- The functions of an atom: number of the atom and element, label. -/
def fnsOf (a : Nat) (elem : Str) (labels : List Str) : List ((Nat × Str) × Str) := labels.map (fun l => ((a, elem), l))

/-- The atoms from number `a` on, on line `j`, up to the line that ends the table. -/
inductive Atoms (α : Type) [Mul α] [Num α] (t : Str) (i : Nat) : Nat → Nat → List ((Nat × Str) × Str) → Nat → Prop
  | last {a j elem ls k} : AtomAt α t i j elem ls k → IsEnd (popLine t i k) → Atoms α t i a j (fnsOf a elem ls) k
  | more {a j elem ls k fs e} : AtomAt α t i j elem ls k → ¬ IsEnd (popLine t i k) → Atoms α t i (a + 1) k fs e →
      Atoms α t i a j (fnsOf a elem ls ++ fs) e

/-- The same with something that is no number, or a line too short after an atom's first function. -/
inductive BadAtoms (α : Type) [Mul α] [Num α] (t : Str) (i : Nat) : Nat → Exn → Prop
  | first {j e} : numbers α 4 (popLine t i j) = .throw e → BadAtoms α t i j e
  | short {j} {vals : List α} : numbers α 4 (popLine t i j) = .ok vals → (popLine t i (j + 1)).length ≤ 10 → BadAtoms α t i j .outOfRange
  | further {j e} : FirstFn α t i j → BadFurther α t i (firstLabel (popLine t i j)) (columns (popLine t i (j + 1))) (j + 1) e →
      BadAtoms α t i j e
  | later {j elem ls k e} : AtomAt α t i j elem ls k → ¬ IsEnd (popLine t i k) → BadAtoms α t i k e → BadAtoms α t i j e

/-- There are at least `n` atoms, and the table does not end with them. -/
inductive OpenAtoms (α : Type) [Mul α] [Num α] (t : Str) (i : Nat) : Nat → Nat → Prop
  | zero {j} : OpenAtoms α t i j 0
  | succ {j elem ls k n} : AtomAt α t i j elem ls k → ¬ IsEnd (popLine t i k) → OpenAtoms α t i k n → OpenAtoms α t i j (n + 1)

/-- The table never ends. -/
inductive EndlessAtoms (α : Type) [Mul α] [Num α] (t : Str) (i : Nat) : Nat → Prop
  | further {j} : FirstFn α t i j →
      (∀ n, OpenFurther α t i (firstLabel (popLine t i j)) (columns (popLine t i (j + 1))) (j + 1) n) → EndlessAtoms α t i j
  | atoms {j} : (∀ n, OpenAtoms α t i j n) → EndlessAtoms α t i j
  | later {j elem ls k} : AtomAt α t i j elem ls k → ¬ IsEnd (popLine t i k) → EndlessAtoms α t i k → EndlessAtoms α t i j

/-! ### the whole file -/

/-- The tables a log file may have. -/
inductive Kind
  | population
  | coords
  | energies (spin : Spin)
  | overlap

/-- The line contains the text that announces such a table. -/
def Mentions (l : Str) : Kind → Prop
  | .population => Contains l (lit "     Gross orbital populations:")
  | .coords => Contains l (lit "Center     Atomic      Atomic") ∨ Contains l (lit "Center     Atomic     Atomic")
  | .energies spin => Contains l (energyHeader spin)
  | .overlap => Contains l (lit " *** Overlap ***")

/-- Which kinds of table take precedence. -/
def precedence : List Kind := [.population, .coords, .energies .alpha, .energies .beta, .overlap]

/-- The line announces a table: it contains the text, and none of those that take precedence. -/
def Announces (l : Str) (k : Kind) : Prop := ∃ a b, precedence = a ++ k :: b ∧ Mentions l k ∧ ∀ k' ∈ a, ¬ Mentions l k'

/-- What is known: the positions, the energies and the number of occupied orbitals by spin, the number of rows of the overlap matrix and
what was listed for it, and the basis functions listed. -/
structure Known (α : Type) where
  coords : Option (List (α × α × α))
  energies : Spin → Option (List α × Nat)
  overlap : Option (Nat × List (Nat × Nat × α))
  functions : List ((Nat × Str) × Str)

/-- Nothing is. -/
def nothing : Known α := ⟨none, fun _ => none, none, []⟩

/-- A table that is announced by line `i`: what it adds to what is known, and the line after it. -/
inductive Table (t : Str) (i : Nat) : Kind → (Known α → Known α) → Nat → Prop
  | coords {k pos} : CoordRows t i k pos → IsRuler (coordLine t i k) →
      Table t i .coords (fun d => { d with coords := some ((List.range k).map pos) }) (i + k + 4)
  | energies {spin k} : 1 ≤ k → EnergyLines t spin i k →
      Table t i (.energies spin) (fun d => { d with energies := fun s => if s = spin then some (energiesOn t i k, occupiedOn α t spin i k) else d.energies s }) (i + k)
  | overlap {n vals} : OverlapAt t i n vals →
      Table t i .overlap (fun d => { d with overlap := some (n, cells n vals) }) (i + 1 + blockLine n ((n + 4) / 5))
  | population {fs e} : Atoms α t i 1 1 fs e → Table t i .population (fun d => { d with functions := d.functions ++ fs }) (i + e + 2)

/-- A table that cannot be read. -/
inductive BadTable (α : Type) [Mul α] [Num α] (t : Str) (i : Nat) : Kind → Fault → Prop
  | coords {k e} {pos : Nat → α × α × α} : CoordRows t i k pos → ¬ IsRuler (coordLine t i k) →
      (position (coordLine t i k) : Res (α × α × α)) = .throw e → BadTable α t i .coords (.throws e)
  | overlap {f} : OverlapFault α t i f → BadTable α t i .overlap f
  | population {e} : BadAtoms α t i 1 e → BadTable α t i .population (.throws e)

/-- A table that is read for ever. -/
inductive EndlessTable (α : Type) [Mul α] [Num α] (t : Str) (i : Nat) : Kind → Prop
  | coords {pos : Nat → α × α × α} : (∀ k, CoordRows t i k pos) → EndlessTable α t i .coords
  /-- The line that announces energies lists none (there is no blank after `--`): it is read again and again. -/
  | energies {spin} : EnergyLines t spin i 0 → EndlessTable α t i (.energies spin)
  | population : EndlessAtoms α t i 1 → EndlessTable α t i .population

/-- From line `i` on, with `d` known, the text is read to its end, and then `d'` is known. -/
inductive Says (t : Str) : Nat → Known α → Known α → Prop
  | done {i d} : NoLine t i → Says t i d d
  | skip {i d d'} : ¬ NoLine t i → (∀ k, ¬ Announces (lineAt t i) k) → Says t (i + 1) d d' → Says t i d d'
  | table {i k f e d d'} : ¬ NoLine t i → Announces (lineAt t i) k → Table t i k f e → Says t e (f d) d' → Says t i d d'

/-- Reading fails. -/
inductive Fails (α : Type) [Mul α] [Num α] (t : Str) : Nat → Fault → Prop
  | bad {i k x} : ¬ NoLine t i → Announces (lineAt t i) k → BadTable α t i k x → Fails α t i x
  | skip {i x} : ¬ NoLine t i → (∀ k, ¬ Announces (lineAt t i) k) → Fails α t (i + 1) x → Fails α t i x
  | table {i k e x} {f : Known α → Known α} : ¬ NoLine t i → Announces (lineAt t i) k → Table t i k f e → Fails α t e x → Fails α t i x

/-- Reading never ends. -/
inductive Endless (α : Type) [Mul α] [Num α] (t : Str) : Nat → Prop
  | here {i k} : ¬ NoLine t i → Announces (lineAt t i) k → EndlessTable α t i k → Endless α t i
  | skip {i} : ¬ NoLine t i → (∀ k, ¬ Announces (lineAt t i) k) → Endless α t (i + 1) → Endless α t i
  | table {i k e} {f : Known α → Known α} : ¬ NoLine t i → Announces (lineAt t i) k → Table t i k f e → Endless α t e → Endless α t i

/-! ### what the getters give -/

/-- The number of functions of each atom: the atoms by number and (if a number was used for several elements) by element, each label of an
atom counted once. -/
def Counts (fs : List ((Nat × Str) × Str)) (counts : List Int) : Prop :=
  ∃ table : List ((Nat × Str) × List Str),
    table.Pairwise (fun x y => x.1.1 < y.1.1 ∨ (x.1.1 = y.1.1 ∧ strLt x.1.2 y.1.2 = true)) ∧
    (∀ x ∈ table, x.2 ≠ [] ∧ x.2.Nodup) ∧ (∀ key label, (key, label) ∈ fs ↔ ∃ ls, (key, ls) ∈ table ∧ label ∈ ls) ∧
    counts = table.map (fun x => (x.2.length : Int))

/-- The getters give what is known. -/
structure Gives [Zero α] (D : LogData α) (d : Known α) : Prop where
  coords : D.getCoords = match d.coords with
    | none => []
    | some rows => [rows.map (·.1), rows.map (·.2.1), rows.map (·.2.2)]
  energies : ∀ spin : Spin, D.getOE spin.name = match d.energies spin with
    | none => .throw .outOfRange
    | some x => .ok x.1
  homo : ∀ spin : Spin, D.getHOMOLevel spin.name = match d.energies spin with
    | none => .throw .outOfRange
    | some x => .ok (x.2 : Int)
  overlap : match d.overlap with
    | none => D.getOverlapMatrix = .ub
    | some x => ∃ m, D.getOverlapMatrix = .ok m ∧ m.rows = x.1 ∧ m.cols = x.1 ∧
        ∀ r c : Nat, 1 ≤ r → r ≤ x.1 → 1 ≤ c → c ≤ x.1 → m.getElem2 r c = .ok (entry x.2 r c)
  functions : Counts d.functions D.getBasisFuncCount

end Verif.LogLines
