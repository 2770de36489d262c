import Verif.Spec.Errors
import Verif.Spec.Rounding
/-
Specification vocabulary for C145: how far the numbers calc_J prints may be from the true ones, when the tables and the arithmetic are rounded.
-/
namespace Verif.Machine
variable {α K : Type} [Zero α] [One α] [Add α] [Sub α] [Mul α] [Div α] [Field K] [LinearOrder K]

/-- The projections computed with all signs made positive are of length at most the root of `L`: nothing large cancels in them. -/
def Tame (L : K) (P N M : Int) (z : Int → K) (s C : Int → Int → K) : Prop :=
  ∑ m ∈ Finset.Icc 1 M, QC.proj P N (size1 z) (size2 s) (size2 C) m ^ 2 ≤ L

/-- The numbers `r` that were computed are those of the true orbitals `a`, `b` and energies `E` (of size at most `B`), up to the errors of the
tables, `η` for the orbitals and `δ` for the energies, and those of the arithmetic: `u` for one operation, `ρ` for all operations in a row, with
projections of length at most the root of `L`. The bound of the coupling can be computed from the overlap that is printed: what is left of
`1 - S²` after all errors, `w`, must be positive. -/
structure TrueUpTo (u : K) (val : α → K) (ρ L η δ B : K) (M : Int) (a b E : Int → K) (r : QC.Report α) : Prop where
  sab : |val r.sab - QC.overlapAB M a b| ≤ η + ρ * L
  ea : |val r.ea - QC.siteEnergy M a E| ≤ η * B + δ * (1 + η) + ρ * (L * (B + δ))
  eb : |val r.eb - QC.siteEnergy M b E| ≤ η * B + δ * (1 + η) + ρ * (L * (B + δ))
  jab : |val r.jab - QC.couplingJ M a b E| ≤ η * B + δ * (1 + η) + ρ * (L * (B + δ))
  jeff : ∀ {w t d : K}, w = 1 - (|val r.sab| + ρ * L) ^ 2 - ρ * (1 + L ^ 2) → 0 < w → t = L * (B + δ) * (1 + L) →
    d = ρ * t * (w + 1 + L ^ 2) / w ^ 2 →
    |val r.jeff - QC.coupling M a b E| ≤ (η * B * (5 + 2 * η) + δ * (1 + η) * (2 + η)) / w + d + u * (t / w + d)

end Verif.Machine
