import Verif.Spec.Machine
import Verif.Spec.Transfer
import Mathlib.Algebra.Order.Field.Basic
import Mathlib.Algebra.Order.BigOperators.Group.Finset
import Mathlib.Algebra.Order.BigOperators.Ring.Finset
/-
Specification vocabulary for C105: how far the numbers calc_J prints may be from the exact ones.
-/
namespace Verif.Machine
variable {α K : Type} [Zero α] [One α] [Add α] [Sub α] [Mul α] [Div α] [Field K] [LinearOrder K]

/-- The machine numbers `α` stand for numbers of `K`; every operation yields the exact result up to a relative error of `u`. This is the
standard model of floating point arithmetic, without overflow and underflow. One half is a machine number. -/
structure Rounds (u : K) (val : α → K) : Prop where
  nonneg : 0 ≤ u
  zero : val 0 = 0
  one : val 1 = 1
  half : val (1 / (1 + 1)) = 1 / 2
  add : ∀ a b, |val (a + b) - (val a + val b)| ≤ u * |val a + val b|
  sub : ∀ a b, |val (a - b) - (val a - val b)| ≤ u * |val a - val b|
  mul : ∀ a b, |val (a * b) - val a * val b| ≤ u * |val a * val b|
  div : ∀ a b, val b ≠ 0 → |val (a / b) - val a / val b| ≤ u * |val a / val b|

/-- The relative error `n` operations in a row can accumulate. -/
def growth (u : K) (n : Nat) : K := (1 + u) ^ n - 1

/-- The sizes of the numbers `f`. -/
def size1 (f : Int → K) (p : Int) : K := |f p|

/-- The sizes of the numbers `f`. -/
def size2 (f : Int → Int → K) (p q : Int) : K := |f p q|

/-- The numbers `r` are, up to rounding, those of exact arithmetic for two orbitals with coefficients `zA`, `zB` over `P` basis functions
(of which the dimer orbitals use `N`) and `M` dimer orbitals: each is off by at most an accumulated relative error, relative to the same
expression with all signs made positive. For the effective coupling the bound needs that the error of the denominator is smaller than the
denominator. -/
structure Accurate (u : K) (val : α → K) (r : QC.Report α) (P N M : Int) (zA zB : Int → K) (s C : Int → Int → K) (E : Int → K) : Prop where
  /-- coupling before orthogonalisation -/
  jab : |val r.jab - QC.couplingJ M (QC.proj P N zA s C) (QC.proj P N zB s C) E|
      ≤ growth u (2 * P.toNat + 2 * N.toNat + 2 * M.toNat + 6) *
        QC.couplingJ M (QC.proj P N (size1 zA) (size2 s) (size2 C)) (QC.proj P N (size1 zB) (size2 s) (size2 C)) (size1 E)
  /-- energy of the first orbital -/
  ea : |val r.ea - QC.siteEnergy M (QC.proj P N zA s C) E|
      ≤ growth u (2 * P.toNat + 2 * N.toNat + 2 * M.toNat + 6) *
        QC.siteEnergy M (QC.proj P N (size1 zA) (size2 s) (size2 C)) (size1 E)
  /-- energy of the second orbital -/
  eb : |val r.eb - QC.siteEnergy M (QC.proj P N zB s C) E|
      ≤ growth u (2 * P.toNat + 2 * N.toNat + 2 * M.toNat + 6) *
        QC.siteEnergy M (QC.proj P N (size1 zB) (size2 s) (size2 C)) (size1 E)
  /-- overlap -/
  sab : |val r.sab - QC.overlapAB M (QC.proj P N zA s C) (QC.proj P N zB s C)|
      ≤ growth u (2 * P.toNat + 2 * N.toNat + M.toNat + 5) *
        QC.overlapAB M (QC.proj P N (size1 zA) (size2 s) (size2 C)) (QC.proj P N (size1 zB) (size2 s) (size2 C))
  /-- effective coupling: `dX` bounds the error of the numerator, `dY` that of the denominator -/
  jeff : ∀ {gA gB aA aB : Int → K} {Y dX dY d : K}, gA = QC.proj P N zA s C → gB = QC.proj P N zB s C →
    aA = QC.proj P N (size1 zA) (size2 s) (size2 C) → aB = QC.proj P N (size1 zB) (size2 s) (size2 C) →
    Y = 1 - QC.overlapAB M gA gB ^ 2 →
    dX = growth u (4 * P.toNat + 4 * N.toNat + 3 * M.toNat + 15) *
      (QC.couplingJ M aA aB (size1 E) + (QC.siteEnergy M aA (size1 E) + QC.siteEnergy M aB (size1 E)) * QC.overlapAB M aA aB / 2) →
    dY = growth u (4 * P.toNat + 4 * N.toNat + 2 * M.toNat + 12) * (1 + QC.overlapAB M aA aB ^ 2) →
    dY < |Y| →
    d = (dX + |QC.coupling M gA gB E| * dY) / (|Y| - dY) →
    |val r.jeff - QC.coupling M gA gB E| ≤ d + u * (|QC.coupling M gA gB E| + d)

end Verif.Machine
