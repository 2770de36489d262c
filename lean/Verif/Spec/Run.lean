import Verif.Spec.LogLines
import Verif.Spec.Unscramble
import Verif.Spec.Machine
import Verif.Parameters
/-
Specification vocabulary for C122: what calc_J does with six files, whatever is in them.
-/
namespace Verif.Run
open Readers QC Log

variable {α β : Type}

/-! ### what is read -/

section
variable [Mul α] [Num α]

/-- What comes of reading a file of coefficients: the tables known, or how it goes wrong. -/
inductive PunFile (files : Str → Option Str) (name : Str) : Res (Pun.Known α) → Prop
  | name : ¬ PlainName (lit ".pun") name → PunFile files name (.throw .invalidArgument)
  | missing : PlainName (lit ".pun") name → files name = none → PunFile files name (.throw .invalidArgument)
  | read {text d} : PlainName (lit ".pun") name → files name = some text → Pun.Says text 0 (fun _ => none) d → PunFile files name (.ok d)
  | fails {text e} : PlainName (lit ".pun") name → files name = some text → Pun.Fails α text 0 e → PunFile files name (.throw e)
  | endless {text} : PlainName (lit ".pun") name → files name = some text → Pun.Endless α text 0 → PunFile files name .diverge

/-- The same for a log file; with what is known comes the number of basis functions of each atom. -/
inductive LogFile (files : Str → Option Str) (name : Str) : Res (LogLines.Known α × List Int) → Prop
  | name : ¬ PlainName (lit ".log") name → LogFile files name (.throw .invalidArgument)
  | missing : PlainName (lit ".log") name → files name = none → LogFile files name (.throw .invalidArgument)
  | read {text d counts} : PlainName (lit ".log") name → files name = some text → LogLines.Says text 0 LogLines.nothing d →
      LogLines.Counts d.functions counts → LogFile files name (.ok (d, counts))
  | fails {text x} : PlainName (lit ".log") name → files name = some text → LogLines.Fails α text 0 x → LogFile files name x.out
  | endless {text} : PlainName (lit ".log") name → files name = some text → LogLines.Endless α text 0 → LogFile files name .diverge

end

/-! ### what is done with it -/

/-- What the two files of one calculation say about the spin asked for: the coefficients of the orbitals, their energies and how many are
occupied, where the atoms are and how many basis functions each has. -/
structure Found (α : Type) where
  orbitals : Option (List (List α))
  energies : Option (List α × Nat)
  atoms : Option (List (α × α × α))
  counts : List Int

/-- From all the files say, that which matters. -/
def found [Mul α] [Num α] (spin : Log.Spin) (pun : Pun.Known α) (log : LogLines.Known α × List Int) : Found α :=
  ⟨pun spin, log.1.energies spin, log.1.coords, log.2⟩

/-- Something that may be missing. -/
def need {γ : Type} (without : Res γ) : Option γ → Res γ
  | some x => .ok x
  | none => without

/-- How many coefficients an orbital has. -/
def width (rows : List (List α)) : Nat := (rows.headD []).length

/-- Coefficient `j` of orbital `i`. -/
def coefficient [Zero α] (rows : List (List α)) (i j : Int) : α := (rows.getD (i - 1).toNat []).getD (j - 1).toNat 0

/-- The overlap of two basis functions. -/
def overlap [Zero α] (S : Nat × List (Nat × Nat × α)) (r c : Int) : α := LogLines.entry S.2 r.toNat c.toNat

/-- Two positions are taken to be the same: they are printed alike. -/
def Same (tos : α → β) (p q : α × α × α) : Prop := tos p.1 = tos q.1 ∧ tos p.2.1 = tos q.2.1 ∧ tos p.2.2 = tos q.2.2

instance [DecidableEq β] (tos : α → β) (p q : α × α × α) : Decidable (Same tos p q) := by unfold Same; infer_instance

/-- The number of the last atom that is there, or -1. -/
def partner [DecidableEq β] (tos : α → β) (atoms : List (α × α × α)) (p : α × α × α) : Int :=
  match atoms.reverse.findIdx? (fun q => Same tos p q) with
  | some k => (atoms.length : Int) - k
  | none => -1

example : partner (id : Int → Int) [(1, 0, 0), (2, 0, 0), (1, 0, 0), (3, 0, 0)] (1, 0, 0) = 3 := by decide
example : partner (id : Int → Int) [(1, 0, 0), (2, 0, 0)] (5, 0, 0) = -1 := by decide

/-- Those of all atoms of `a` among the atoms of `b`. -/
def partners [DecidableEq β] (tos : α → β) (a b : List (α × α × α)) : List Int := a.map (partner tos b)

/-- The coefficients of monomer 2 and of the dimer and the overlaps, once the atoms are in the order of the monomers (of monomer 1, with
counterpoise). `n` basis functions. -/
noncomputable def inOrder [Zero α] [DecidableEq β] (tos : α → β) (cp : Bool) (x1 x2 xP : List (α × α × α)) (b2 bP : List Int) (n : Int)
    (C2 CP S : Int → Int → α) : Res ((Int → Int → α) × (Int → Int → α) × (Int → Int → α)) :=
  if cp then do
    let C2 ← servedCols b2 (requests 0 (partners tos x1 x2)) [] n C2
    let CP ← servedCols bP (requests 0 (partners tos x1 xP)) [] n CP
    let S ← servedBoth bP (requests 0 (partners tos x1 xP)) [] n n S
    .ok (C2, CP, S)
  else do
    let CP ← servedCols bP (requests x1.length (partners tos x2 xP)) (requests 0 (partners tos x1 xP)) n CP
    let S ← servedBoth bP (requests x1.length (partners tos x2 xP)) (requests 0 (partners tos x1 xP)) n n S
    .ok (C2, CP, S)

/-- The orbital of a monomer that is asked for, with its type and number; `energies` and how many of them are of occupied orbitals. Orbitals
without coefficients end the process. -/
def chosen (rows : List (List α)) (energies : List α × Nat) (kind : Str) (num : Int) : Res Int := do
  let row ← request rows.length (energies.1.length, energies.2) (some kind) (some num)
  if width rows = 0 then .exit 1 else .ok row

section
variable [Zero α] [One α] [Add α] [Sub α] [Mul α] [Div α] [DecidableEq β]

/-- What calc_J does once everything is read: the numbers it prints, or how it goes wrong. -/
noncomputable def outcome (tos : α → β) (cp : Bool) (kind1 : Str) (num1 : Int) (kind2 : Str) (num2 : Int)
    (S : Option (Nat × List (Nat × Nat × α))) (P m1 m2 : Found α) : Res (Report α) := do
  let S ← need .ub S
  let CP ← need (.throw .invalidArgument) P.orbitals
  let EP ← need (.throw .outOfRange) P.energies
  let E1 ← need (.throw .outOfRange) m1.energies
  let C1 ← need (.throw .invalidArgument) m1.orbitals
  let E2 ← need (.throw .outOfRange) m2.energies
  let C2 ← need (.throw .invalidArgument) m2.orbitals
  let xP ← need (.throw .outOfRange) P.atoms
  let x1 ← need (.throw .outOfRange) m1.atoms
  let x2 ← need (.throw .outOfRange) m2.atoms
  if width CP = S.1 ∧ (if cp then width C1 = S.1 ∧ width C2 = S.1 else width C1 + width C2 ≤ S.1) then do
    let (c2, cP, s) ←
      if m1.counts ≠ [] ∧ m2.counts ≠ [] ∧ P.counts ≠ [] then
        inOrder tos cp x1 x2 xP m2.counts P.counts S.1 (coefficient C2) (coefficient CP) (overlap S)
      else .ok (coefficient C2, coefficient CP, overlap S)
    let row1 ← chosen C1 E1 kind1 num1
    let row2 ← chosen C2 E2 kind2 num2
    if Conforming cp (width C1) (width C2) S.1 ∧ EP.1.length = CP.length then
      .ok (Machine.report CP.length (Machine.proj S.1 S.1 (zetaA cp (width C1) (coefficient C1 row1)) s cP)
        (Machine.proj S.1 S.1 (zetaB cp (width C1) (c2 row2)) s cP) (fun m => EP.1.getD (m - 1).toNat 0))
    else .exit 1
  else .throw .invalidArgument

variable [Num α]

/-- What calc_J does with the parameters `par`, spins `spinP`, `spin1`, `spin2`, when reading the six files gives this. -/
noncomputable def calcJ (tos : α → β) (par : Params.Params) (spinP spin1 spin2 : Log.Spin) (punP pun1 pun2 : Res (Pun.Known α))
    (logP log1 log2 : Res (LogLines.Known α × List Int)) : Res (Params.Params × Report α) := do
  let punP ← punP
  let pun1 ← pun1
  let pun2 ← pun2
  let logP ← logP
  let log1 ← log1
  let log2 ← log2
  let r ← outcome tos par.counterPoise par.orbType1 par.orbNum1 par.orbType2 par.orbNum2 logP.1.overlap (found spinP punP logP)
    (found spin1 pun1 log1) (found spin2 pun2 log2)
  .ok (par, r)

end

/-! ### when nothing can be said, or nothing happens -/

/-- The blocks of basis functions fit into `n`. -/
def BlocksFit (basis : List Int) (n : Int) : Prop := (∀ b ∈ basis, 1 ≤ b) ∧ basis.sum ≤ n

/-- A block that is asked for, or the place it is wanted at, is not there. -/
def Lost (basis : List Int) (n : Int) (first second : List (Int × Int)) : Prop :=
  BlocksFit basis n ∧ ¬ Clash first second ∧ Outside basis.length (exchanges [] (first ++ second))

/-- The requests cannot all be served. -/
def Stuck (basis : List Int) (n : Int) (first second : List (Int × Int)) : Prop := BlocksFit basis n ∧ Clash first second

/-- Neither. -/
def Sound (basis : List Int) (n : Int) (first second : List (Int × Int)) : Prop :=
  BlocksFit basis n ∧ ¬ Clash first second ∧ ¬ Outside basis.length (exchanges [] (first ++ second))

/-- Putting the atoms in order comes to grief in the way `Grief`. -/
def ComesTo [DecidableEq β] (Grief : List Int → Int → List (Int × Int) → List (Int × Int) → Prop) (tos : α → β) (cp : Bool)
    (x1 x2 xP : List (α × α × α)) (b2 bP : List Int) (n : Int) : Prop :=
  if cp then Grief b2 n (requests 0 (partners tos x1 x2)) [] ∨
    (Sound b2 n (requests 0 (partners tos x1 x2)) [] ∧ Grief bP n (requests 0 (partners tos x1 xP)) [])
  else Grief bP n (requests x1.length (partners tos x2 xP)) (requests 0 (partners tos x1 xP))

/-- Everything is there, the sizes fit and the atoms are to be put in order: then this holds of them. -/
def WhenSorting (S : Option (Nat × List (Nat × Nat × α))) (cp : Bool) (P m1 m2 : Found α)
    (Q : List (α × α × α) → List (α × α × α) → List (α × α × α) → Int → Prop) : Prop :=
  ∃ s CP EP E1 C1 E2 C2 xP x1 x2, S = some s ∧ P.orbitals = some CP ∧ P.energies = some EP ∧ m1.energies = some E1 ∧ m1.orbitals = some C1 ∧
    m2.energies = some E2 ∧ m2.orbitals = some C2 ∧ P.atoms = some xP ∧ m1.atoms = some x1 ∧ m2.atoms = some x2 ∧
    (width CP = s.1 ∧ (if cp then width C1 = s.1 ∧ width C2 = s.1 else width C1 + width C2 ≤ s.1)) ∧
    (m1.counts ≠ [] ∧ m2.counts ≠ [] ∧ P.counts ≠ []) ∧ Q x1 x2 xP s.1

/-- A program does this: it ends so, or, if that is the outcome, never. -/
def Does {γ : Type} (f : Nat → Res γ) : Res γ → Prop
  | .diverge => Hangs f
  | out => Ends f out

end Verif.Run
