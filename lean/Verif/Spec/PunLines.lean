import Verif.Spec.Pun
import Verif.Spec.Feed
/-
What a punch file says, whatever is in it: an arbitrary text, as numbered lines.
-/
namespace Verif.Pun
open Readers Log

variable {α : Type} [Mul α] [Num α]

/-- A text without the white space around it. -/
def strip (s : Str) : Str := ((s.dropWhile White).reverse.dropWhile White).reverse

/-- The number in a field of 15 characters: 11 for the mantissa, one that does not matter, 3 for the exponent. -/
def fieldNumber (f : Str) : Res α := do
  let a ← Num.stod (strip (f.take 11))
  let b ← Num.stod (strip (f.drop 12))
  .ok (a * Num.pow10 b)

/-- The fields of a line, from the left; what is left over does not matter. -/
def fields (l : Str) : List Str := (List.range (l.length / 15)).map (fun k => (l.drop (15 * k)).take 15)

/-- The numbers on a line, or the exception for the first of them that is none. -/
def lineCoefs (l : Str) : Res (List α) := (fields l).mapM fieldNumber

/-- Line `j` of an orbital that starts with line `i` of the text: the last line of the text again and again when there are no more;
but if the text has no line `i` at all, an empty line. -/
def rowLine (t : Str) (i j : Nat) : Str := if i < (textLines t).length then lineAt t (i + j) else []

/-- An orbital is complete before the line `l`: it looks like the line above another orbital, or the orbital is not the first one
and has as many coefficients (`count`) as the one before. -/
def Complete (count : Option Nat) (l : Str) (row : List α) : Prop :=
  Contains l (lit " MO OE") ∨ ∃ c, count = some c ∧ c ≤ row.length

/-- The numbers on the first `k` lines of an orbital, line by line. -/
def together (vals : Nat → List α) (k : Nat) : List α := (List.range k).flatMap vals

/-- The first `k` lines of the orbital that starts with line `i` have the coefficients `vals`, and it is not complete before. -/
def RowLines (t : Str) (count : Option Nat) (i k : Nat) (vals : Nat → List α) : Prop :=
  ∀ j < k, ¬ Complete count (rowLine t i j) (together vals j) ∧ lineCoefs (rowLine t i j) = .ok (vals j)

/-- An orbital of `k` lines, starting with line `i`, and its coefficients. -/
def RowAt (t : Str) (count : Option Nat) (i k : Nat) (row : List α) : Prop :=
  ∃ vals, RowLines t count i k vals ∧ row = together vals k ∧ Complete count (rowLine t i k) row

/-- Before the orbital is complete there is a line with something that is no number. -/
def BadRowAt (α : Type) [Mul α] [Num α] (t : Str) (count : Option Nat) (i : Nat) (e : Exn) : Prop :=
  ∃ (k : Nat) (vals : Nat → List α), RowLines t count i k vals ∧ ¬ Complete count (rowLine t i k) (together vals k) ∧
    (lineCoefs (rowLine t i k) : Res (List α)) = .throw e

/-- It never is complete. -/
def EndlessRow (α : Type) [Mul α] [Num α] (t : Str) (count : Option Nat) (i : Nat) : Prop :=
  ∃ vals : Nat → List α, ∀ k, RowLines t count i k vals

/-- A table of orbitals from line `i` to before line `e`: it goes on as long as the line after an orbital contains the name of the
spin. (That line is part of the table, whatever else it says.) -/
inductive TableAt (t : Str) (spin : Spin) : Option Nat → Nat → List (List α) → Nat → Prop
  | last {count i k row} : RowAt t count i k row → ¬ Contains (rowLine t i k) spin.name → TableAt t spin count i [row] (i + k + 1)
  | more {count i k row rows e} : RowAt t count i k row → Contains (rowLine t i k) spin.name →
      TableAt t spin (some row.length) (i + k + 1) rows e → TableAt t spin count i (row :: rows) e

/-- The same with a line that is no good. -/
inductive BadTable (α : Type) [Mul α] [Num α] (t : Str) (spin : Spin) : Option Nat → Nat → Exn → Prop
  | here {count i e} : BadRowAt α t count i e → BadTable α t spin count i e
  | later {count i k e} {row : List α} : RowAt t count i k row → Contains (rowLine t i k) spin.name →
      BadTable α t spin (some row.length) (i + k + 1) e → BadTable α t spin count i e

/-- The same with an orbital that never is complete. -/
inductive EndlessTable (α : Type) [Mul α] [Num α] (t : Str) (spin : Spin) : Option Nat → Nat → Prop
  | here {count i} : EndlessRow α t count i → EndlessTable α t spin count i
  | later {count i k} {row : List α} : RowAt t count i k row → Contains (rowLine t i k) spin.name →
      EndlessTable α t spin (some row.length) (i + k + 1) → EndlessTable α t spin count i

/-- All orbitals have as many coefficients as the first one. -/
def SameLength (rows : List (List α)) : Prop := ∀ v ∈ rows, v.length = (rows.headD []).length

/-- No line `i` is left (an empty one at the very end is none). -/
def NoLine (t : Str) (i : Nat) : Prop := (textLines t).length ≤ i ∨ ((textLines t).length = i + 1 ∧ lineAt t i = [])

/-- The line announces a table. -/
def Announces (l : Str) : Spin → Prop
  | .alpha => Contains l (lit " 1 Alpha MO ")
  | .beta => ¬ Contains l (lit " 1 Alpha MO ") ∧ Contains l (lit " 1 Beta MO ")

/-- The tables known, by spin. -/
abbrev Known (α : Type) := Spin → Option (List (List α))

/-- From line `i` on, with the tables `d` known, the text is read to its end, and then the tables `d'` are known. -/
inductive Says (t : Str) : Nat → Known α → Known α → Prop
  | done {i d} : NoLine t i → Says t i d d
  | skip {i d d'} : ¬ NoLine t i → (∀ spin, ¬ Announces (lineAt t i) spin) → Says t (i + 1) d d' → Says t i d d'
  | table {i d d' spin rows e} : ¬ NoLine t i → Announces (lineAt t i) spin → TableAt t spin none (i + 1) rows e → SameLength rows →
      Says t e (fun s => if s = spin then some rows else d s) d' → Says t i d d'

/-- Reading fails: with a line that is no good, or with a table of orbitals that differ in length. -/
inductive Fails (α : Type) [Mul α] [Num α] (t : Str) : Nat → Exn → Prop
  | bad {i spin e} : ¬ NoLine t i → Announces (lineAt t i) spin → BadTable α t spin none (i + 1) e → Fails α t i e
  | uneven {i spin e} {rows : List (List α)} : ¬ NoLine t i → Announces (lineAt t i) spin → TableAt t spin none (i + 1) rows e → ¬ SameLength rows →
      Fails α t i .invalidArgument
  | skip {i e} : ¬ NoLine t i → (∀ spin, ¬ Announces (lineAt t i) spin) → Fails α t (i + 1) e → Fails α t i e
  | table {i spin k e} {rows : List (List α)} : ¬ NoLine t i → Announces (lineAt t i) spin → TableAt t spin none (i + 1) rows k → SameLength rows →
      Fails α t k e → Fails α t i e

/-- Reading never ends. -/
inductive Endless (α : Type) [Mul α] [Num α] (t : Str) : Nat → Prop
  | here {i spin} : ¬ NoLine t i → Announces (lineAt t i) spin → EndlessTable α t spin none (i + 1) → Endless α t i
  | skip {i} : ¬ NoLine t i → (∀ spin, ¬ Announces (lineAt t i) spin) → Endless α t (i + 1) → Endless α t i
  | table {i spin k} {rows : List (List α)} : ¬ NoLine t i → Announces (lineAt t i) spin → TableAt t spin none (i + 1) rows k → SameLength rows →
      Endless α t k → Endless α t i

end Verif.Pun
