import Verif.Spec.Report
import Verif.Spec.Machine
/-
Specification vocabulary for C146: what every run of calc_J prints, in the arithmetic of the machine.
-/
namespace Verif.QC
variable {α : Type} [Zero α] [One α] [Add α] [Sub α] [Mul α] [Div α]

/-- `r` are the numbers of the machine for orbital number `row1` of monomer 1 and orbital number `row2` of monomer 2 in the dimer with the given coefficients,
overlap matrix and orbital energies. No law of arithmetic is assumed. -/
def MachineReport (cp : Bool) (coef1 coef2 coefP S : Mat α) (E : List α) (row1 row2 : Int) (r : Report α) : Prop :=
  ∃ N1 n1 N2 n2 M N K c1 c2 C s, Values coef1 N1 n1 c1 ∧ Values coef2 N2 n2 c2 ∧ Values coefP M N C ∧ Values S K N s ∧
    E.length = M ∧ Conforming cp n1 n2 K ∧ 1 ≤ row1 ∧ row1 ≤ N1 ∧ 1 ≤ row2 ∧ row2 ≤ N2 ∧
    r = Machine.report M (Machine.proj K N (zetaA cp n1 (c1 row1)) s C) (Machine.proj K N (zetaB cp n1 (c2 row2)) s C) (fun m => E.getD (m - 1).toNat 0)

end Verif.QC
