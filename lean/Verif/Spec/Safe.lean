import Verif.Spec.Main
/-
Specification vocabulary for C80: what keeps calc_J from undefined behaviour.
-/
namespace Verif.Job
variable {α β : Type}

/-- Every position of `rows` looks like one of the positions `ref`, and neither list is longer than `n`, the number of atoms known to
have basis functions. -/
def AllFound (tos : α → β) (rows ref : List (α × α × α)) (n : Nat) : Prop :=
  rows.length ≤ n ∧ ref.length ≤ n ∧ ∀ x ∈ rows, ∃ y ∈ ref, Alike tos x y

/-- With counterpoise, the atoms of monomer 1 are found in monomer 2 (which has basis functions for `n2` atoms) and in the dimer
(`nP` atoms). Without, the atoms of both monomers are found in the dimer. -/
def AtomsFound (tos : α → β) (cp : Bool) (rows1 rows2 rowsP : List (α × α × α)) (n2 nP : Nat) : Prop :=
  if cp then AllFound tos rows1 rows2 n2 ∧ AllFound tos rows1 rowsP nP else AllFound tos (rows1 ++ rows2) rowsP nP

/-- The coordinates are those of this list of positions. -/
def Positions (xyz : List (List α)) (rows : List (α × α × α)) : Prop := xyz = [rows.map (·.1), rows.map (·.2.1), rows.map (·.2.2)]

end Verif.Job
