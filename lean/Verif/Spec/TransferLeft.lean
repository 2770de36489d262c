import Verif.TransferLeft
import Verif.Spec.Transfer
/-
Specification vocabulary for C140: sequences of calls of one `TransferComplex`.
-/
namespace Verif.QC
open Verif.Mat
variable {α β : Type}

/-- A call of one of the two member functions. -/
inductive Call (α : Type)
  /-- `unscramble` with the coordinates of monomer 1, of monomer 2 and of the dimer, and the counts of functions of the dimer and of monomer 2. -/
  | unscramble (coord1 coord2 coordP : Mat α) (basisP basis2 : List Int)
  /-- `calcJ` with the kinds of orbitals and their numbers. -/
  | calcJ (orbtype : Str → Option Str) (orbnum : Str → Option Int)

/-- What the caller sees of a call. -/
inductive Reply (α : Type)
  | unscrambled (outcome : Res Unit)
  /-- Whether there was a warning, and the numbers. -/
  | report (warned : Bool) (numbers : Res (Report α))

def Call.isUnscramble : Call α → Bool
  | .unscramble .. => true
  | .calcJ .. => false

/-- One call: the reply, and the object afterwards. -/
def serve [Zero α] [One α] [Add α] [Sub α] [Mul α] [Div α] [DecidableEq β] (tos : α → β) (T : TransferComplex α) : Call α → Reply α × TransferComplex α
  | .unscramble x1 x2 xP bP b2 => (.unscrambled (T.unscrambleLeft tos x1 x2 xP bP b2).1, (T.unscrambleLeft tos x1 x2 xP bP b2).2)
  | .calcJ k n => (.report T.warns (T.calcJReport k n), T)

/-- The object after these calls. (If one of them never comes back, what follows has no meaning; the theorems hold all the same.) -/
def servedAll [Zero α] [One α] [Add α] [Sub α] [Mul α] [Div α] [DecidableEq β] (tos : α → β) (T : TransferComplex α) (calls : List (Call α)) :
    TransferComplex α :=
  calls.foldl (fun T c => (serve tos T c).2) T

/-- Same dimensions, one shelf, every element set. -/
def SameShape (m m' : Mat α) : Prop :=
  ∀ ⦃r c : Int⦄ ⦃f : Int → Int → α⦄, Values m r c f → ∃ g, Values m' r c g

end Verif.QC
