import Verif.Spec.Log
/-
What a Gaussian punch file contains: tables of orbital coefficients in fields of 15 characters, and other lines.
-/
namespace Verif.Pun
open Readers Log

variable {α : Type}

/-- A field of 15 characters: mantissa (11), a letter, exponent (3), with blanks around the numbers. -/
def Field [Mul α] [Num α] (t : Str) (v : α) : Prop :=
  ∃ a c e m x y z, t = a ++ c :: e ∧ a.length = 11 ∧ e.length = 3 ∧ Strings.Layout a [m] ∧ Strings.Layout e [x] ∧
    Num.stod m = .ok y ∧ Num.stod x = .ok z ∧ v = y * Num.pow10 z

/-- A line of coefficients: fields, then less than a field. -/
def CoefLine [Mul α] [Num α] (l : Str) (vals : List α) : Prop :=
  IsLine l ∧ Strings.Fits l ∧ ¬ Contains l (lit " MO OE") ∧ ∃ (fields : List (Str × α)) (short : Str),
    l = fields.flatMap (·.1) ++ short ∧ short.length < 15 ∧ (∀ f ∈ fields, Field f.1 f.2) ∧ vals = fields.map (·.2)

/-- An orbital: the line above its coefficients, and their lines. -/
structure Orbital (α : Type) where
  header : Str
  rows : List (Str × List α)

/-- Its lines. -/
def Orbital.lines (o : Orbital α) : List Str := o.header :: o.rows.map (·.1)

/-- Its coefficients. -/
def Orbital.coefs (o : Orbital α) : List α := o.rows.flatMap (·.2)

/-- A table of orbitals of one spin, each with `n` coefficients. -/
def CoefTable [Mul α] [Num α] (spin : Spin) (n : Nat) (orbs : List (Orbital α)) : Prop :=
  orbs ≠ [] ∧ 1 ≤ n ∧
    (∀ o ∈ orbs.head?, Contains o.header ((lit " 1 ") ++ spin.name ++ (lit " MO "))) ∧
    (spin = .beta → ∀ o ∈ orbs.head?, ¬ Contains o.header (lit " 1 Alpha MO ")) ∧
    (∀ o ∈ orbs.tail, Contains o.header (lit " MO OE") ∧ Contains o.header spin.name) ∧
    ∀ o ∈ orbs, IsLine o.header ∧ o.coefs.length = n ∧ ∀ r ∈ o.rows, CoefLine r.1 r.2 ∧ r.2 ≠ []

/-- A line that starts no table. -/
def Plain (l : Str) : Prop := IsLine l ∧ ¬ Contains l (lit " 1 Alpha MO ") ∧ ¬ Contains l (lit " 1 Beta MO ")

/-- A line that shows the end of a table of `m` orbitals: it does not mention the spin, and if there is but one orbital, it
looks like the line above the coefficients of another one. -/
def Follows (spin : Spin) (m : Nat) (l : Str) : Prop :=
  ¬ Contains l spin.name ∧ (m = 1 → Contains l (lit " MO OE"))

/-- A piece of a punch file. -/
inductive Piece (α : Type)
  /-- a line of no interest -/
  | plain (l : Str)
  /-- a table and the line after it -/
  | coefs (spin : Spin) (n : Nat) (orbs : List (Orbital α)) (next : Str)

/-- How the file ends. -/
inductive Ending (α : Type)
  /-- with some characters that are no line -/
  | rest (t : Str)
  /-- with a table -/
  | table (spin : Spin) (n : Nat) (orbs : List (Orbital α))

/-- The text of a table. -/
def tableText (orbs : List (Orbital α)) : Str := unlines (orbs.flatMap Orbital.lines)

def Piece.text : Piece α → Str
  | .plain l => l ++ ['\n']
  | .coefs _ _ orbs next => tableText orbs ++ next ++ ['\n']

def Ending.text : Ending α → Str
  | .rest t => t
  | .table _ _ orbs => tableText orbs

def Piece.Ok [Mul α] [Num α] : Piece α → Prop
  | .plain l => Plain l
  | .coefs spin n orbs next => CoefTable spin n orbs ∧ IsLine next ∧ Follows spin orbs.length next

/-- A table at the end of the file must have two orbitals or more. -/
def Ending.Ok [Mul α] [Num α] : Ending α → Prop
  | .rest t => t = [] ∨ Plain t
  | .table spin n orbs => CoefTable spin n orbs ∧ 2 ≤ orbs.length

/-- The text of a file. -/
def punText (ps : List (Piece α)) (e : Ending α) : Str := ps.flatMap Piece.text ++ e.text

/-- A punch file. -/
def PunFile [Mul α] [Num α] (ps : List (Piece α)) (e : Ending α) : Prop := (∀ p ∈ ps, p.Ok) ∧ e.Ok

/-- The last table of a spin. -/
def lastTable (spin : Spin) : List (Piece α) → Ending α → Option (List (Orbital α))
  | [], .rest _ => none
  | [], .table s _ orbs => if s = spin then some orbs else none
  | .plain _ :: ps, e => lastTable spin ps e
  | .coefs s _ orbs _ :: ps, e => if s = spin then some ((lastTable spin ps e).getD orbs) else lastTable spin ps e

/-- What makes sure that reading a punch file ends: its last line looks like the line above the coefficients of an orbital, of no
spin. -/
def PunGuard (ls : List Str) : Prop :=
  ∃ init last, ls = init ++ [last] ∧ Contains last (lit " MO OE") ∧ ∀ spin : Spin, ¬ Contains last spin.name

end Verif.Pun
