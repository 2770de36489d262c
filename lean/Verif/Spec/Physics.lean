import Verif.Spec.Report
import Mathlib.Algebra.Order.Ring.Defs
import Mathlib.Algebra.Order.Group.Unbundled.Abs
/-
Specification vocabulary for C136-C139: other basis functions, other dimer orbitals, and the range of the dimer's energies, in plain finite sums.
-/
namespace Verif.QC
open Finset Verif.Mat
variable {α : Type} [Field α]

/-- `s'` is the overlap of the functions `χ'_p = ∑_r T(p,r) χ_r`, where `s` is that of the functions `χ`. -/
def NewOverlap (K K' : Int) (T s s' : Int → Int → α) : Prop :=
  ∀ p q, 1 ≤ p → p ≤ K' → 1 ≤ q → q ≤ K' → s' p q = ∑ r ∈ Icc 1 K, ∑ t ∈ Icc 1 K, T p r * s r t * T q t

/-- `c'` with the functions `χ'` is the same orbital as `c` with the functions `χ`: `∑_p c'(p) χ'_p = ∑_q c(q) χ_q`. -/
def SameOrbital (K K' : Int) (T : Int → Int → α) (c c' : Int → α) : Prop :=
  ∀ q, 1 ≤ q → q ≤ K → c q = ∑ p ∈ Icc 1 K', c' p * T p q

/-- The new functions of monomer 1 are made of those of monomer 1 only, the others of those of monomer 2. -/
def KeepsMonomers (K K' n1 n1' : Int) (T : Int → Int → α) : Prop :=
  ∀ p q, 1 ≤ p → p ≤ K' → 1 ≤ q → q ≤ K → ¬ (p ≤ n1' ↔ q ≤ n1) → T p q = 0

/-- The orbitals `C'` with energies `E'` are another orthonormal choice for `C` with energies `E`: `C'_m = ∑_n U(m,n) C_n` for an orthogonal
`U` that mixes orbitals of the same energy only. -/
structure Rechosen (M N : Int) (U C C' : Int → Int → α) (E E' : Int → α) : Prop where
  orbitals : ∀ m q, 1 ≤ m → m ≤ M → 1 ≤ q → q ≤ N → C' m q = ∑ n ∈ Icc 1 M, U m n * C n q
  orthogonal : ∀ n l, 1 ≤ n → n ≤ M → 1 ≤ l → l ≤ M → ∑ m ∈ Icc 1 M, U m n * U m l = if n = l then 1 else 0
  energies : ∀ m n, 1 ≤ m → m ≤ M → 1 ≤ n → n ≤ M → E' m ≠ E n → U m n = 0

/-- The orbital with projections `g` on the dimer's orbitals is normalised in them. -/
def Normed (M : Int) (g : Int → α) : Prop := ∑ m ∈ Icc 1 M, g m ^ 2 = 1

/-- The mean energy of the (not normalised) orbital with projections `g`: `∑ₘ g(m)² E(m) / ∑ₘ g(m)²`. -/
def meanEnergy (M : Int) (g E : Int → α) : α := (∑ m ∈ Icc 1 M, g m ^ 2 * E m) / ∑ m ∈ Icc 1 M, g m ^ 2

end Verif.QC

namespace Verif.QC
open Finset Verif.Mat
variable {α : Type}

/-- The matrix has no elements between functions of monomer 1 (the first `n1`) and functions of monomer 2. -/
def NoCross [Zero α] (K n1 : Int) (A : Int → Int → α) : Prop :=
  ∀ p q, 1 ≤ p → p ≤ K → 1 ≤ q → q ≤ K → ¬ (p ≤ n1 ↔ q ≤ n1) → A p q = 0

/-- Every orbital is on one of the monomers. -/
def Localised [Zero α] (M K n1 : Int) (C : Int → Int → α) : Prop :=
  ∀ m, 1 ≤ m → m ≤ M → (∀ q, 1 ≤ q → q ≤ n1 → C m q = 0) ∨ ∀ q, n1 < q → q ≤ K → C m q = 0

/-- `r` is a report with site energies among the dimer's orbital energies, an overlap of at most one and a coupling of at most half the range of the
energies, whenever the monomer orbitals are normalised in the dimer's. -/
def RangeMeaning [Field α] [LinearOrder α] (cp : Bool) (coef1 coef2 coefP S : Mat α) (E : List α) (row1 row2 : Int) (r : Report α) : Prop :=
  ∀ ⦃N1 n1 N2 n2 M N K : Int⦄ ⦃c1 c2 C s : Int → Int → α⦄ ⦃lo hi : α⦄, Values coef1 N1 n1 c1 → Values coef2 N2 n2 c2 → Values coefP M N C →
    Values S K N s → Normed M (proj K N (zetaA cp n1 (c1 row1)) s C) → Normed M (proj K N (zetaB cp n1 (c2 row2)) s C) → (∀ e ∈ E, lo ≤ e ∧ e ≤ hi) →
    lo ≤ r.ea ∧ r.ea ≤ hi ∧ lo ≤ r.eb ∧ r.eb ≤ hi ∧ -1 ≤ r.sab ∧ r.sab ≤ 1 ∧ |r.jeff| ≤ (hi - lo) / 2

end Verif.QC
