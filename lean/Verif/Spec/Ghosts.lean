import Verif.Spec.MachineRun
/-
Specification vocabulary for C150: a plain job and a counterpoise job of the same dimer.
-/
namespace Verif.Machine
open Verif.QC Verif.Mat
variable {α : Type} [Zero α]

/-- The second set of tables is that of a counterpoise job (each monomer has the basis functions of both) of the same dimer as the first, which is that of a plain
job; and the two orbitals asked for have the coefficients they have in the plain job on the functions of their own monomer and 0 on the functions of the other. -/
structure Ghosts (cp cp' : Bool) (coef1 coef1' coef2 coef2' coefP coefP' S S' : Mat α) (E E' : List α) (row1 row1' row2 row2' : Int) : Prop where
  plain : cp = false
  counterpoise : cp' = true
  sizes : coef1'.cols = coef1.cols + coef2.cols ∧ coef2'.cols = coef1.cols + coef2.cols ∧ coefP'.rows = coefP.rows ∧ coefP'.cols = coefP.cols ∧
    S'.rows = S.rows ∧ S'.cols = S.cols
  own1 : ∀ j, 1 ≤ j → j ≤ coef1.cols → coef1'.getElem2 row1' j = coef1.getElem2 row1 j
  ghost1 : ∀ j, 1 ≤ j → j ≤ coef2.cols → coef1'.getElem2 row1' (coef1.cols + j) = .ok 0
  own2 : ∀ j, 1 ≤ j → j ≤ coef2.cols → coef2'.getElem2 row2' (coef1.cols + j) = coef2.getElem2 row2 j
  ghost2 : ∀ j, 1 ≤ j → j ≤ coef1.cols → coef2'.getElem2 row2' j = .ok 0
  dimer : ∀ i j, 1 ≤ i → i ≤ coefP.rows → 1 ≤ j → j ≤ coefP.cols → coefP'.getElem2 i j = coefP.getElem2 i j
  overlap : ∀ i j, 1 ≤ i → i ≤ S.rows → 1 ≤ j → j ≤ S.cols → S'.getElem2 i j = S.getElem2 i j
  energies : E' = E

end Verif.Machine
