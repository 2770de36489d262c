import Verif.Spec.Physics
/-
Specification vocabulary for C144: two jobs with almost the same numbers.
-/
namespace Verif.QC
open Finset Verif.Mat
variable {α : Type}

/-- The orbitals with projections `g` and `g'` differ by at most `ε` in length. -/
def Near [Field α] [LE α] (M : Int) (ε : α) (g g' : Int → α) : Prop := ∑ m ∈ Icc 1 M, (g' m - g m) ^ 2 ≤ ε ^ 2

/-- The numbers of two jobs whose monomer orbitals differ by at most `ε` each and whose dimer energies, all between `lo` and `hi`, differ by at most `δ`. -/
structure CloseReports [Field α] [LinearOrder α] (ε δ lo hi : α) (r r' : Report α) : Prop where
  sab : |r'.sab - r.sab| ≤ 2 * ε
  ea : |r'.ea - r.ea| ≤ δ + ε * (hi - lo)
  eb : |r'.eb - r.eb| ≤ δ + ε * (hi - lo)
  jeff : r'.sab ^ 2 ≠ 1 → |r'.jeff - r.jeff| ≤ δ + 5 * ε * (hi - lo) / (1 - r'.sab ^ 2)

/-- `r` and `r'` are close reports whenever the monomer orbitals are normalised in the dimer's and the tables are close in this sense. -/
def CloseMeaning [Field α] [LinearOrder α] (cp : Bool) (coef1 coef2 coefP S : Mat α) (E : List α) (row1 row2 : Int) (r : Report α)
    (cp' : Bool) (coef1' coef2' coefP' S' : Mat α) (E' : List α) (row1' row2' : Int) (r' : Report α) : Prop :=
  ∀ ⦃N1 n1 N2 n2 M N K : Int⦄ ⦃c1 c2 C s : Int → Int → α⦄, Values coef1 N1 n1 c1 → Values coef2 N2 n2 c2 → Values coefP M N C → Values S K N s →
  ∀ ⦃N1' n1' N2' n2' N' K' : Int⦄ ⦃c1' c2' C' s' : Int → Int → α⦄, Values coef1' N1' n1' c1' → Values coef2' N2' n2' c2' → Values coefP' M N' C' →
    Values S' K' N' s' →
    Normed M (proj K N (zetaA cp n1 (c1 row1)) s C) → Normed M (proj K N (zetaB cp n1 (c2 row2)) s C) →
    Normed M (proj K' N' (zetaA cp' n1' (c1' row1')) s' C') → Normed M (proj K' N' (zetaB cp' n1' (c2' row2')) s' C') →
    ∀ ⦃ε δ lo hi : α⦄, 0 ≤ ε → Near M ε (proj K N (zetaA cp n1 (c1 row1)) s C) (proj K' N' (zetaA cp' n1' (c1' row1')) s' C') →
    Near M ε (proj K N (zetaB cp n1 (c2 row2)) s C) (proj K' N' (zetaB cp' n1' (c2' row2')) s' C') →
    (∀ e ∈ E, lo ≤ e ∧ e ≤ hi) → (∀ k, |E'.getD k 0 - E.getD k 0| ≤ δ) → CloseReports ε δ lo hi r r'

/-- The numbers `r` are those of the monomer orbitals with projections `a` and `b` (normalised) and dimer energies `E`, of size at most `B`, up to errors that come
from errors `ε` of the orbitals and `δ` of the energies; `η` stands for `ε (2 + ε)`. -/
structure Approximates [Field α] [LinearOrder α] (η δ B : α) (M : Int) (a b E : Int → α) (r : Report α) : Prop where
  sab : |r.sab - overlapAB M a b| ≤ η
  ea : |r.ea - siteEnergy M a E| ≤ η * B + δ * (1 + η)
  eb : |r.eb - siteEnergy M b E| ≤ η * B + δ * (1 + η)
  jab : |r.jab - couplingJ M a b E| ≤ η * B + δ * (1 + η)
  jeff : r.sab ^ 2 < 1 → |r.jeff - coupling M a b E| ≤ (η * B * (5 + 2 * η) + δ * (1 + η) * (2 + η)) / (1 - r.sab ^ 2)

/-- `r` approximates the report of any normalised orbitals and energies the tables are close to. -/
def RoundedMeaning [Field α] [LinearOrder α] (cp : Bool) (coef1 coef2 coefP S : Mat α) (E' : List α) (row1 row2 : Int) (r : Report α) : Prop :=
  ∀ ⦃N1 n1 N2 n2 M N K : Int⦄ ⦃c1 c2 C s : Int → Int → α⦄, Values coef1 N1 n1 c1 → Values coef2 N2 n2 c2 → Values coefP M N C → Values S K N s →
    ∀ ⦃a b E : Int → α⦄ ⦃ε δ B : α⦄, Normed M a → Normed M b → 0 ≤ ε → Near M ε a (proj K N (zetaA cp n1 (c1 row1)) s C) →
    Near M ε b (proj K N (zetaB cp n1 (c2 row2)) s C) → (∀ m, 1 ≤ m → m ≤ M → |E m| ≤ B) →
    (∀ m, 1 ≤ m → m ≤ M → |E'.getD (m - 1).toNat 0 - E m| ≤ δ) → Approximates (ε * (2 + ε)) δ B M a b E r

end Verif.QC
