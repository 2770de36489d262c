import Verif.Spec.MachineRun
import Verif.Spec.TotalError
/-
Specification vocabulary for C146: what the numbers of any run of calc_J are worth.
-/
namespace Verif.Machine
open Verif.QC Verif.Mat
variable {α K : Type} [Zero α] [One α] [Add α] [Sub α] [Mul α] [Div α] [Field K] [LinearOrder K]

/-- `r` are, up to rounding, the numbers of exact arithmetic for the given tables. -/
def AccurateMeaning (u : K) (val : α → K) (cp : Bool) (coef1 coef2 coefP S : Mat α) (E : List α) (row1 row2 : Int) (r : Report α) : Prop :=
  ∀ ⦃N1 n1 N2 n2 M N P : Int⦄ ⦃c1 c2 C s : Int → Int → α⦄, Values coef1 N1 n1 c1 → Values coef2 N2 n2 c2 → Values coefP M N C → Values S P N s →
    Conforming cp n1 n2 P ∧ E.length = M ∧
    Accurate u val r P N M (zetaA cp n1 fun p => val (c1 row1 p)) (zetaB cp n1 fun p => val (c2 row2 p)) (fun p q => val (s p q)) (fun p q => val (C p q))
      fun m => val (E.getD (m - 1).toNat 0)

/-- `r` are the numbers of any normalised orbitals and energies the tables are close to, up to the errors of tables and arithmetic. -/
def TrueMeaning (u : K) (val : α → K) (cp : Bool) (coef1 coef2 coefP S : Mat α) (E' : List α) (row1 row2 : Int) (r : Report α) : Prop :=
  ∀ ⦃N1 n1 N2 n2 M N P : Int⦄ ⦃c1 c2 C s : Int → Int → α⦄, Values coef1 N1 n1 c1 → Values coef2 N2 n2 c2 → Values coefP M N C → Values S P N s →
    ∀ ⦃a b E : Int → K⦄ ⦃ε δ B L : K⦄, Normed M a → Normed M b → 0 ≤ ε →
    Near M ε a (QC.proj P N (zetaA cp n1 fun p => val (c1 row1 p)) (fun p q => val (s p q)) fun p q => val (C p q)) →
    Near M ε b (QC.proj P N (zetaB cp n1 fun p => val (c2 row2 p)) (fun p q => val (s p q)) fun p q => val (C p q)) →
    (∀ m, 1 ≤ m → m ≤ M → |E m| ≤ B) → (∀ m, 1 ≤ m → m ≤ M → |val (E'.getD (m - 1).toNat 0) - E m| ≤ δ) →
    Tame L P N M (zetaA cp n1 fun p => val (c1 row1 p)) (fun p q => val (s p q)) (fun p q => val (C p q)) →
    Tame L P N M (zetaB cp n1 fun p => val (c2 row2 p)) (fun p q => val (s p q)) (fun p q => val (C p q)) →
    TrueUpTo u val (growth u (4 * P.toNat + 4 * N.toNat + 3 * M.toNat + 15)) L (ε * (2 + ε)) δ B M a b E r

end Verif.Machine
