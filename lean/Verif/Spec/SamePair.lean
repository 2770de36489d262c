import Verif.Spec.Physics
/-
Specification vocabulary for C153: two descriptions of the same pair of molecules.
-/
namespace Verif.QC
open Finset Verif.Mat
variable {α : Type} [Field α]

/-- The second description is of the same pair as the first: other basis functions (`χ'_p = ∑_r T(p,r) χ_r`), the two monomer orbitals the same up to the factors
`x` and `y`, another orthonormal choice of the dimer's orbitals `C'_m = ∑_n U(m,n) C_n` that mixes orbitals of equal energy only, and energies in another unit
(`k` new ones to the old) counted from another zero: `E' = k E + c`. The monomer orbitals are given by a coefficient for each function of the dimer. -/
structure SamePair (K K' M : Int) (zA zB zA' zB' : Int → α) (s s' C C' : Int → Int → α) (E E' : Int → α) (T U : Int → Int → α) (x y k c : α) : Prop where
  overlaps : NewOverlap K K' T s s'
  first : SameOrbital K K' T (fun q => x * zA q) zA'
  second : SameOrbital K K' T (fun q => y * zB q) zB'
  dimer : ∀ m, 1 ≤ m → m ≤ M → SameOrbital K K' T (fun q => ∑ n ∈ Icc 1 M, U m n * C n q) (C' m)
  orthogonal : ∀ n l, 1 ≤ n → n ≤ M → 1 ≤ l → l ≤ M → ∑ m ∈ Icc 1 M, U m n * U m l = if n = l then 1 else 0
  energies : ∀ m n, 1 ≤ m → m ≤ M → 1 ≤ n → n ≤ M → E' m ≠ k * E n + c → U m n = 0

/-- The numbers that belong together: the energies in the new unit from the new zero, overlap and couplings with the new signs. -/
structure Converted (x y k c : α) (r r' : Report α) : Prop where
  jab : r'.jab = x * y * (k * r.jab + c * r.sab)
  ea : r'.ea = k * r.ea + c
  eb : r'.eb = k * r.eb + c
  sab : r'.sab = x * y * r.sab
  jeff : r'.jeff = x * y * (k * r.jeff)

/-- Two sets of tables, each with its report: if they describe the same pair, the numbers belong together. -/
def SamePairMeaning (cp : Bool) (coef1 coef2 coefP S : Mat α) (E : List α) (row1 row2 : Int) (r : Report α)
    (cp' : Bool) (coef1' coef2' coefP' S' : Mat α) (E' : List α) (row1' row2' : Int) (r' : Report α) : Prop :=
  ∀ ⦃N1 n1 N2 n2 M K : Int⦄ ⦃c1 c2 C s : Int → Int → α⦄, Values coef1 N1 n1 c1 → Values coef2 N2 n2 c2 → Values coefP M K C → Values S K K s →
    ∀ ⦃N1' n1' N2' n2' K' : Int⦄ ⦃c1' c2' C' s' : Int → Int → α⦄, Values coef1' N1' n1' c1' → Values coef2' N2' n2' c2' → Values coefP' M K' C' →
      Values S' K' K' s' →
    ∀ ⦃T U : Int → Int → α⦄ ⦃x y k c : α⦄, (x = 1 ∨ x = -1) → (y = 1 ∨ y = -1) →
      SamePair K K' M (zetaA cp n1 (c1 row1)) (zetaB cp n1 (c2 row2)) (zetaA cp' n1' (c1' row1')) (zetaB cp' n1' (c2' row2')) s s' C C'
        (fun m => E.getD (m - 1).toNat 0) (fun m => E'.getD (m - 1).toNat 0) T U x y k c →
      (c = 0 ∨ Normed M (proj K K (zetaA cp n1 (c1 row1)) s C) ∧ Normed M (proj K K (zetaB cp n1 (c2 row2)) s C)) →
      Converted x y k c r r'

end Verif.QC
