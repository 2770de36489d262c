import Verif.Spec.Physics
/-
Specification vocabulary for C143: the splitting of the dimer's levels.
-/
namespace Verif.QC
open Finset Verif.Mat
variable {α : Type}

/-- No orbitals of the dimer but `p` and `q` have a part of the orbital with projections `g`. -/
def OnlyTwo [Zero α] (M p q : Int) (g : Int → α) : Prop := ∀ m, 1 ≤ m → m ≤ M → m ≠ p → m ≠ q → g m = 0

/-- Coupling and site energies of the report account for a splitting of at most `D`: `4 J² + (e_a - e_b)² / (1 - S²) ≤ D²` (and if `S² = 1`, `J` and
`e_a - e_b` are zero). -/
structure SplitAtMost [Field α] [LinearOrder α] (D : α) (r : Report α) : Prop where
  split : r.sab ^ 2 ≠ 1 → 4 * r.jeff ^ 2 + (r.ea - r.eb) ^ 2 / (1 - r.sab ^ 2) ≤ D ^ 2
  same : r.sab ^ 2 = 1 → r.jeff = 0 ∧ r.ea = r.eb

/-- They account for exactly the splitting `D`. -/
structure SplitExactly [Field α] (D : α) (r : Report α) : Prop where
  split : r.sab ^ 2 ≠ 1 → 4 * r.jeff ^ 2 + (r.ea - r.eb) ^ 2 / (1 - r.sab ^ 2) = D ^ 2
  half : r.sab ^ 2 ≠ 1 → r.ea = r.eb → 2 * r.jeff = D ∨ 2 * r.jeff = -D

/-- `r` accounts for at most the range of the dimer's energies, whenever the monomer orbitals are normalised in the dimer's; and if only two of the dimer's
orbitals have a part of them, for exactly the difference of their energies. -/
def SplitMeaning [Field α] [LinearOrder α] (cp : Bool) (coef1 coef2 coefP S : Mat α) (E : List α) (row1 row2 : Int) (r : Report α) : Prop :=
  ∀ ⦃N1 n1 N2 n2 M N K : Int⦄ ⦃c1 c2 C s : Int → Int → α⦄, Values coef1 N1 n1 c1 → Values coef2 N2 n2 c2 → Values coefP M N C →
    Values S K N s → Normed M (proj K N (zetaA cp n1 (c1 row1)) s C) → Normed M (proj K N (zetaB cp n1 (c2 row2)) s C) →
    (∀ lo hi, (∀ e ∈ E, lo ≤ e ∧ e ≤ hi) → SplitAtMost (hi - lo) r) ∧
    ∀ p q, 1 ≤ p → p < q → q ≤ M → OnlyTwo M p q (proj K N (zetaA cp n1 (c1 row1)) s C) → OnlyTwo M p q (proj K N (zetaB cp n1 (c2 row2)) s C) →
      SplitExactly (E.getD (q - 1).toNat 0 - E.getD (p - 1).toNat 0) r

end Verif.QC
