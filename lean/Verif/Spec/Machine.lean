import Verif.Spec.Main
import Verif.QC
import Mathlib.Tactic.Ring
import Mathlib.Tactic.NormNum
import Mathlib.Tactic.Linarith
import Mathlib.Algebra.Field.Rat
/-
The numbers calc_J is meant to print when `+ - * /` are those of the machine: no law of arithmetic is assumed, so every operation and the
order of the additions is spelled out.
-/
namespace Verif.Machine
variable {α : Type} [Zero α] [One α] [Add α] [Sub α] [Mul α] [Div α]

/-- `(...((0 + a 1) + a 2) + ...) + a n` -/
def sum (a : Int → α) : Nat → α
  | 0 => 0
  | n + 1 => sum a n + a (n + 1)

/-- The product of row `a` and column `b`, both of length `n`. -/
def dot (n : Int) (a b : Int → α) : α := sum (fun k => a k * b k) n.toNat

/-- The projection of an orbital with coefficients `zeta` (in the basis of the dimer) on dimer orbital `m`: first the overlap matrix times
the coefficients of the dimer orbital, then the product with `zeta`. -/
def proj (K N : Int) (zeta : Int → α) (S C : Int → Int → α) (m : Int) : α :=
  dot K zeta (fun p => dot N (S p) (C m))

/-- Line `k` of the diagonal matrix of the energies times `g`. -/
def weighted (M : Int) (E g : Int → α) (k : Int) : α := dot M (fun l => if k = l then E k else 0) g

/-- The five numbers for two orbitals with projections `gA` and `gB`. -/
def report (M : Int) (gA gB E : Int → α) : QC.Report α :=
  let J := dot M gB (weighted M E gA)
  let ea := dot M gA (weighted M E gA)
  let eb := dot M gB (weighted M E gB)
  let S := dot M gB gA
  ⟨J, ea, eb, S, (J - 1 / (1 + 1) * (eb + ea) * S) / (1 - S * S)⟩

/-- The numbers for an orbital of monomer 1, with coefficients `u` (`n1` of them), and one of monomer 2, with coefficients `v`, in a
dimer with `M` orbitals and `n` basis functions, with coefficients `C`, overlaps `s` and energies `es`. -/
def jobReport [Readers.Num α] (cp : Bool) (u v : Int → α) (n1 : Int) (M n : Int) (C s : Int → Int → α) (es : List Log.EnergyLine) : QC.Report α :=
  report M (proj n n (QC.zetaA cp n1 u) s C) (proj n n (QC.zetaB cp n1 v) s C) (Job.energyOf es)

end Verif.Machine

namespace Verif.Job
open Log Pun Readers
variable {α : Type} [Mul α] [Num α] [Zero α]

/-- The two files are complete output of the calculation of a monomer: the last tables of that spin hold the orbitals `orbs` with `n`
coefficients each and the energies `es`, the atoms are at `rows`, and there is a table of populations. -/
def MonomerFiles (files : Str → Option Str) (pun log : Str) (spin : Log.Spin) (n : Int) (orbs : List (Orbital α)) (es : List EnergyLine)
    (rows : List (α × α × α)) : Prop :=
  ∃ o : Output α, Stored files pun log o ∧ Orbitals o spin orbs n es ∧ lastCoords o.log = some rows ∧ ∃ counts, BasisCounts o counts ∧ counts ≠ []

/-- The two files are complete output of the calculation of a molecule whose atoms are at `ref` and have `basis` basis functions. The files
may list the atoms in any order; listed in the order of `ref`, the coefficients of its `M` orbitals would be `C`. -/
def ListedFiles {β : Type} (tos : α → β) (files : Str → Option Str) (pun log : Str) (spin : Log.Spin) (ref : List (α × α × α)) (basis : List Int)
    (M : Nat) (C : Int → Int → α) (es : List EnergyLine) : Prop :=
  ∃ (o : Output α) (orbs : List (Orbital α)) (rows : List (α × α × α)) (order : List Int),
    Stored files pun log o ∧ Orbitals o spin orbs basis.sum es ∧ orbs.length = M ∧ lastCoords o.log = some rows ∧
    Reordered tos order ref rows ∧ BasisCounts o (QC.reorderedBasis basis order) ∧ ColumnsAs basis order C (coefOf orbs)

/-- The same with the overlap matrix, which would be `s`. -/
def DimerFiles {β : Type} (tos : α → β) (files : Str → Option Str) (pun log : Str) (spin : Log.Spin) (ref : List (α × α × α)) (basis : List Int)
    (M : Nat) (C s : Int → Int → α) (es : List EnergyLine) : Prop :=
  ∃ (o : Output α) (orbs : List (Orbital α)) (rows : List (α × α × α)) (order : List Int) (S : Nat → Nat → α),
    Stored files pun log o ∧ Orbitals o spin orbs basis.sum es ∧ orbs.length = M ∧ lastCoords o.log = some rows ∧
    Reordered tos order ref rows ∧ BasisCounts o (QC.reorderedBasis basis order) ∧ ColumnsAs basis order C (coefOf orbs) ∧
    lastOverlap o.log = some (basis.sum.toNat, S) ∧ BothAs basis order s (overlapOf S)

end Verif.Job

namespace Verif.Machine

/-- Laws of signs and zeros that floating point arithmetic with rounding to nearest obeys as long as no infinities or NaNs occur, when the
two zeros are identified. Nothing is said about associativity, distributivity or cancellation. -/
class SignLaws (α : Type) [Zero α] [One α] [Add α] [Sub α] [Mul α] [Div α] [Neg α] : Prop where
  zero_add : ∀ a : α, 0 + a = a
  add_zero : ∀ a : α, a + 0 = a
  zero_mul : ∀ a : α, 0 * a = 0
  neg_zero : -(0 : α) = 0
  neg_neg : ∀ a : α, - -a = a
  neg_add : ∀ a b : α, -a + -b = -(a + b)
  neg_sub : ∀ a b : α, -a - -b = -(a - b)
  neg_mul : ∀ a b : α, -a * b = -(a * b)
  mul_neg : ∀ a b : α, a * -b = -(a * b)
  neg_div : ∀ a b : α, -a / b = -(a / b)

/-- A way of rounding rational numbers. -/
structure Rounding where
  rnd : Rat → Rat
  odd : ∀ x, rnd (-x) = - rnd x
  idem : ∀ x, rnd (rnd x) = rnd x
  one : rnd 1 = 1

/-- The numbers that need no rounding, with the rounded operations. -/
def Fl (r : Rounding) : Type := { x : Rat // r.rnd x = x }

namespace Fl
variable {r : Rounding}

theorem rnd_zero (r : Rounding) : r.rnd 0 = 0 := by
  have h := r.odd 0
  rw [neg_zero] at h
  linarith

instance : Zero (Fl r) := ⟨⟨0, rnd_zero r⟩⟩
instance : One (Fl r) := ⟨⟨1, r.one⟩⟩
instance : Add (Fl r) := ⟨fun a b => ⟨r.rnd (a.1 + b.1), r.idem _⟩⟩
instance : Sub (Fl r) := ⟨fun a b => ⟨r.rnd (a.1 - b.1), r.idem _⟩⟩
instance : Mul (Fl r) := ⟨fun a b => ⟨r.rnd (a.1 * b.1), r.idem _⟩⟩
instance : Div (Fl r) := ⟨fun a b => ⟨r.rnd (a.1 / b.1), r.idem _⟩⟩
instance : Neg (Fl r) := ⟨fun a => ⟨-a.1, by rw [r.odd, a.2]⟩⟩

/-- Every rounded arithmetic obeys the laws of signs. -/
instance : SignLaws (Fl r) where
  zero_add a := Subtype.ext (by show r.rnd (0 + a.1) = a.1; rw [_root_.zero_add]; exact a.2)
  add_zero a := Subtype.ext (by show r.rnd (a.1 + 0) = a.1; rw [_root_.add_zero]; exact a.2)
  zero_mul a := Subtype.ext (by show r.rnd (0 * a.1) = 0; rw [MulZeroClass.zero_mul]; exact rnd_zero r)
  neg_zero := Subtype.ext (by show -(0 : Rat) = 0; exact _root_.neg_zero)
  neg_neg a := Subtype.ext (by show - -a.1 = a.1; exact _root_.neg_neg _)
  neg_add a b := Subtype.ext (by show r.rnd (-a.1 + -b.1) = -r.rnd (a.1 + b.1); rw [← r.odd]; congr 1; ring)
  neg_sub a b := Subtype.ext (by show r.rnd (-a.1 - -b.1) = -r.rnd (a.1 - b.1); rw [← r.odd]; congr 1; ring)
  neg_mul a b := Subtype.ext (by show r.rnd (-a.1 * b.1) = -r.rnd (a.1 * b.1); rw [← r.odd]; congr 1; ring)
  mul_neg a b := Subtype.ext (by show r.rnd (a.1 * -b.1) = -r.rnd (a.1 * b.1); rw [← r.odd]; congr 1; ring)
  neg_div a b := Subtype.ext (by show r.rnd (-a.1 / b.1) = -r.rnd (a.1 / b.1); rw [← r.odd]; congr 1; ring)

/-- Thousandths, the rest cut off. -/
def thousandths : Rounding where
  rnd x := (((x * 1000).num.tdiv (x * 1000).den : Int) : Rat) / 1000
  odd x := by
    have h : (-x) * 1000 = -(x * 1000) := by ring
    rw [h, Rat.neg_num, Rat.neg_den, Int.neg_tdiv]
    push_cast
    ring
  idem x := by
    have h : ∀ k : Int, ((k : Rat) / 1000 * 1000) = (k : Rat) := fun k => by ring
    simp [h]
  one := by norm_num

end Fl

/-- Exact arithmetic obeys them as well. -/
instance {F : Type} [Field F] : SignLaws F where
  zero_add := _root_.zero_add
  add_zero := _root_.add_zero
  zero_mul := MulZeroClass.zero_mul
  neg_zero := _root_.neg_zero
  neg_neg := _root_.neg_neg
  neg_add a b := by ring
  neg_sub a b := by ring
  neg_mul a b := by ring
  mul_neg a b := by ring
  neg_div a b := by ring

end Verif.Machine
