import Verif.Spec.Report
import Mathlib.LinearAlgebra.Matrix.Notation
import Mathlib.Algebra.Order.Ring.Defs
/-
Specification vocabulary for C132: what the coupling means in terms of the Fock matrix of the dimer, in plain finite sums.
-/
namespace Verif.QC
open Finset Verif.Mat
variable {α : Type}

section
variable [Field α]

/-- `⟨a| A |b⟩ = ∑ₚ,q a(p) A(p,q) b(q)`. -/
def sandwich (K : Int) (a : Int → α) (A : Int → Int → α) (b : Int → α) : α :=
  ∑ p ∈ Icc 1 K, ∑ q ∈ Icc 1 K, a p * A p q * b q

/-- The rows of `C` are `K` orbitals of `K` basis functions, orthonormal in the overlap `S`: `⟨C_m|S|C_n⟩ = δ_mn`. -/
def Orthonormal (K : Int) (S C : Int → Int → α) : Prop :=
  ∀ m n, 1 ≤ m → m ≤ K → 1 ≤ n → n ≤ K → sandwich K (C m) S (C n) = if m = n then 1 else 0

/-- The orbitals `C_m` with energies `E m` solve the Roothaan equations of the Fock matrix `F`: `F C_m = E_m S C_m`. -/
def Roothaan (K : Int) (F S C : Int → Int → α) (E : Int → α) : Prop :=
  ∀ m p, 1 ≤ m → m ≤ K → 1 ≤ p → p ≤ K → ∑ q ∈ Icc 1 K, F p q * C m q = E m * ∑ q ∈ Icc 1 K, S p q * C m q

/-- The numbers to be printed for orbitals `a` and `b` when `F` is the Fock matrix: `⟨a|F|b⟩`, `⟨a|F|a⟩`, `⟨b|F|b⟩`, `⟨a|S|b⟩`, and the
coupling after orthogonalisation. -/
def fockReport (K : Int) (a b : Int → α) (F S : Int → Int → α) : Report α :=
  ⟨sandwich K a F b, sandwich K a F a, sandwich K b F b, sandwich K a S b,
    (sandwich K a F b - (sandwich K a F a + sandwich K b F b) * sandwich K a S b / 2) / (1 - sandwich K a S b ^ 2)⟩

/-- `r` is the report on orbitals `row1` and `row2` for the Fock matrix of the dimer, whenever the dimer's orbitals are a full orthonormal set
and there is such a matrix. -/
def FockMeaning (cp : Bool) (coef1 coef2 coefP S : Mat α) (E : List α) (row1 row2 : Int) (r : Report α) : Prop :=
  ∀ ⦃N1 n1 N2 n2 K : Int⦄ ⦃c1 c2 C s F : Int → Int → α⦄, Values coef1 N1 n1 c1 → Values coef2 N2 n2 c2 → Values coefP K K C →
    Values S K K s → Orthonormal K s C → Roothaan K F s C (fun m => E.getD (m - 1).toNat 0) →
    r = fockReport K (zetaA cp n1 (c1 row1)) (zetaB cp n1 (c2 row2)) F s

end

/-- The overlap matrix of two normalised states with overlap `s`. -/
def pairOverlap [One α] (s : α) : Matrix (Fin 2) (Fin 2) α := !![1, s; s, 1]

/-- The energies of two states, with the coupling `j`. -/
def pairEnergy (ea eb j : α) : Matrix (Fin 2) (Fin 2) α := !![ea, j; j, eb]

/-- `X` is a positive definite symmetric matrix that makes states with overlap `s` orthonormal: Loewdin's `O^(-1/2)`. -/
structure Loewdin [Ring α] [LinearOrder α] (s : α) (X : Matrix (Fin 2) (Fin 2) α) : Prop where
  symm : X 1 0 = X 0 1
  pos : 0 < X 0 0
  det : 0 < X 0 0 * X 1 1 - X 0 1 * X 1 0
  one : X * pairOverlap s * X = 1

end Verif.QC
