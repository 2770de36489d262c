import Verif.Spec.Transfer
import Verif.QC
/-
Specification of the numbers calc_J prints.
-/
namespace Verif.QC
variable {α : Type} [Field α]

/-- The numbers to be printed for two orbitals with projections `gA` and `gB` on the dimer orbitals with energies `E`: coupling and
site energies before orthogonalisation, overlap, and the coupling after orthogonalisation. -/
def reportOf (M : Int) (gA gB E : Int → α) : Report α :=
  ⟨couplingJ M gA gB E, siteEnergy M gA E, siteEnergy M gB E, overlapAB M gA gB, coupling M gA gB E⟩

/-- As `IsCoupling`, for all the numbers printed: `r` is the report on orbital number `row1` of monomer 1 and orbital number `row2` of
monomer 2 in the dimer with the given coefficients, overlap matrix and orbital energies. -/
def IsReport (cp : Bool) (coef1 coef2 coefP S : Mat α) (E : List α) (row1 row2 : Int) (r : Report α) : Prop :=
  ∃ N1 n1 N2 n2 M N K c1 c2 C s, Values coef1 N1 n1 c1 ∧ Values coef2 N2 n2 c2 ∧ Values coefP M N C ∧ Values S K N s ∧
    E.length = M ∧ Conforming cp n1 n2 K ∧ 1 ≤ row1 ∧ row1 ≤ N1 ∧ 1 ≤ row2 ∧ row2 ≤ N2 ∧
    r = reportOf M (proj K N (zetaA cp n1 (c1 row1)) s C) (proj K N (zetaB cp n1 (c2 row2)) s C) (fun m => E.getD (m - 1).toNat 0)

end Verif.QC
