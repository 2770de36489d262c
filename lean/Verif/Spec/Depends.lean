import Verif.Spec.MachineRun
/-
Specification vocabulary for C148 and C149: what the printed numbers depend on; the same job with the monomers exchanged.
-/
namespace Verif.Machine
open Verif.QC Verif.Mat
variable {α : Type}

/-- The tables agree in what matters: the mode, the sizes of the bases, the coefficients of the two orbitals asked for (which may have other numbers), all
coefficients and energies of the dimer's orbitals, and all overlaps. The other orbitals of the monomers may differ, and there may be more or fewer of them. -/
structure Agree (cp cp' : Bool) (coef1 coef1' coef2 coef2' coefP coefP' S S' : Mat α) (E E' : List α) (row1 row1' row2 row2' : Int) : Prop where
  mode : cp' = cp
  sizes : coef1'.cols = coef1.cols ∧ coef2'.cols = coef2.cols ∧ coefP'.rows = coefP.rows ∧ coefP'.cols = coefP.cols ∧ S'.rows = S.rows ∧ S'.cols = S.cols
  orbital1 : ∀ j, 1 ≤ j → j ≤ coef1.cols → coef1'.getElem2 row1' j = coef1.getElem2 row1 j
  orbital2 : ∀ j, 1 ≤ j → j ≤ coef2.cols → coef2'.getElem2 row2' j = coef2.getElem2 row2 j
  dimer : ∀ i j, 1 ≤ i → i ≤ coefP.rows → 1 ≤ j → j ≤ coefP.cols → coefP'.getElem2 i j = coefP.getElem2 i j
  overlap : ∀ i j, 1 ≤ i → i ≤ S.rows → 1 ≤ j → j ≤ S.cols → S'.getElem2 i j = S.getElem2 i j
  energies : E' = E

/-- The report with the names of the monomers exchanged. -/
def exchange (r : Report α) : Report α := { r with ea := r.eb, eb := r.ea }

end Verif.Machine
