import Verif.Spec.Matrix
import Mathlib.Algebra.BigOperators.Ring.Finset
import Mathlib.Data.Int.Interval
import Mathlib.Algebra.Field.Defs
/-
Specification vocabulary for C32-C41: the Loewdin-orthogonalised coupling written as plain finite sums.
-/
namespace Verif.QC
open Verif.Mat Finset
variable {α : Type}

/-- `m` is a well-formed `r × c` matrix with one shelf whose entry `(i,j)` is read as `f i j`. -/
structure Values (m : Mat α) (r c : Int) (f : Int → Int → α) : Prop where
  wf : WF m
  rows : m.rows = r
  cols : m.cols = c
  shel : m.shel = 1
  val : ∀ i j, 1 ≤ i → i ≤ r → 1 ≤ j → j ≤ c → m.getElem2 i j = .ok (f i j)

/-- `m` is a column or a row holding `E 1, ..., E n`. -/
def VectorOf (m : Mat α) (n : Int) (E : Int → α) : Prop :=
  Values m n 1 (fun i _ => E i) ∨ Values m 1 n (fun _ j => E j)

/-- The monomer dimensions fit the dimer basis: with counterpoise each monomer is expressed in all `K` dimer basis
functions, without it the dimer basis is that of monomer 1 followed by that of monomer 2. -/
def Conforming (cp : Bool) (n1 n2 K : Int) : Prop := if cp then n1 = K ∧ n2 = K else n1 + n2 = K

instance (cp : Bool) (n1 n2 K : Int) : Decidable (Conforming cp n1 n2 K) := by unfold Conforming; infer_instance

/-- Monomer 1 in the dimer basis: itself, or padded with zeros on the right. -/
def zetaA [Zero α] (cp : Bool) (n1 : Int) (u : Int → α) (p : Int) : α := if cp then u p else if p ≤ n1 then u p else 0

/-- Monomer 2 in the dimer basis: itself, or padded with `n1` zeros on the left. -/
def zetaB [Zero α] (cp : Bool) (n1 : Int) (v : Int → α) (p : Int) : α := if cp then v p else if p ≤ n1 then 0 else v (p - n1)

section
variable [Field α]

/-- `g(m) = ∑ₚ,q ζ(p) S(p,q) C(m,q)`, the projection of an orbital on dimer orbital `m`. -/
def proj (K N : Int) (zeta : Int → α) (S C : Int → Int → α) (m : Int) : α :=
  ∑ p ∈ Icc 1 K, ∑ q ∈ Icc 1 N, zeta p * S p q * C m q

/-- `∑ₘ g_B(m) E(m) g_A(m)` -/
def couplingJ (M : Int) (gA gB E : Int → α) : α := ∑ m ∈ Icc 1 M, gB m * E m * gA m

/-- `∑ₘ g(m)² E(m)` -/
def siteEnergy (M : Int) (g E : Int → α) : α := ∑ m ∈ Icc 1 M, g m ^ 2 * E m

/-- `∑ₘ g_B(m) g_A(m)` -/
def overlapAB (M : Int) (gA gB : Int → α) : α := ∑ m ∈ Icc 1 M, gB m * gA m

/-- `(J - (e_a + e_b) S / 2) / (1 - S²)` -/
def coupling (M : Int) (gA gB E : Int → α) : α :=
  (couplingJ M gA gB E - (siteEnergy M gA E + siteEnergy M gB E) * overlapAB M gA gB / 2) / (1 - overlapAB M gA gB ^ 2)

end

/-- The request "`kind`, number `n`" names an orbital of a monomer with `orbs = (number of orbitals, HOMO level)`, and
`row` is that orbital. -/
def NamesOrbital (orbs : Int × Int) (kind : List Char) (n row : Int) : Prop :=
  (kind = "HOMO".toList ∧ n ≤ 0 ∧ -orbs.2 < n ∧ row = orbs.2 + n) ∨
  (kind = "LUMO".toList ∧ 0 ≤ n ∧ n < orbs.1 - orbs.2 ∧ row = orbs.2 + 1 + n)

example : NamesOrbital (10, 4) "HOMO".toList (-3) 1 := by unfold NamesOrbital; decide
example : NamesOrbital (10, 4) "LUMO".toList 5 10 := by unfold NamesOrbital; decide

end Verif.QC

namespace Verif.QC
open Verif.Mat

/-- C110: the row of a monomer's coefficients a request names, or how the request fails: a request with no type or number
is `out_of_range`; a type other than HOMO and LUMO, or a number on the wrong side of it or beyond the orbitals counted, is
`invalid_argument`; a row the coefficients do not have ends the process. -/
def request (rows : Int) (orbs : Int × Int) (kind : Option (List Char)) (num : Option Int) : Res Int :=
  match kind, num with
  | some k, some n =>
    if k = "HOMO".toList ∧ -orbs.2 < n ∧ n ≤ 0 then existing (orbs.2 + n)
    else if k = "LUMO".toList ∧ 0 ≤ n ∧ n < orbs.1 - orbs.2 then existing (orbs.2 + 1 + n)
    else .throw .invalidArgument
  | _, _ => .throw .outOfRange
where
  existing (row : Int) : Res Int := if 1 ≤ row ∧ row ≤ rows then .ok row else .exit 1

end Verif.QC
