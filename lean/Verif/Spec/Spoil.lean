import Verif.Spec.MachineRun
/-
Specification vocabulary for C147: numbers that are no numbers.
-/
namespace Verif.Machine
open Verif.QC Verif.Mat
variable {α : Type} [Zero α] [One α] [Add α] [Sub α] [Mul α] [Div α]

/-- Whatever is computed from one of the bad numbers is bad, as with the not-a-number of the machine. -/
structure Spoils (bad : α → Prop) : Prop where
  add : ∀ a b, bad a ∨ bad b → bad (a + b)
  sub : ∀ a b, bad a ∨ bad b → bad (a - b)
  mul : ∀ a b, bad a ∨ bad b → bad (a * b)
  div : ∀ a b, bad a ∨ bad b → bad (a / b)

/-- Which of the five numbers are bad if there is a bad number among the coefficients `u` of the orbital of monomer 1, the coefficients `v` of the orbital of
monomer 2, the coefficients `C` of the dimer's `M` orbitals, the overlaps `s` of its basis functions, or the energies `E`. The effective coupling is bad in
each case. -/
structure Spoiled (bad : α → Prop) (n1 n2 M N K : Int) (u v : Int → α) (C s : Int → Int → α) (E : Int → α) (r : Report α) : Prop where
  monomer1 : (∃ p, 1 ≤ p ∧ p ≤ n1 ∧ bad (u p)) → bad r.jab ∧ bad r.ea ∧ bad r.sab ∧ bad r.jeff
  monomer2 : (∃ p, 1 ≤ p ∧ p ≤ n2 ∧ bad (v p)) → bad r.jab ∧ bad r.eb ∧ bad r.sab ∧ bad r.jeff
  overlap : (∃ p q, 1 ≤ p ∧ p ≤ K ∧ 1 ≤ q ∧ q ≤ N ∧ bad (s p q)) → bad r.jab ∧ bad r.ea ∧ bad r.eb ∧ bad r.sab ∧ bad r.jeff
  dimer : (∃ m q, 1 ≤ m ∧ m ≤ M ∧ 1 ≤ q ∧ q ≤ N ∧ bad (C m q)) → bad r.jab ∧ bad r.ea ∧ bad r.eb ∧ bad r.sab ∧ bad r.jeff
  energy : (∃ m, 1 ≤ m ∧ m ≤ M ∧ bad (E m)) → bad r.jab ∧ bad r.ea ∧ bad r.eb ∧ bad r.jeff

/-- The same for the tables of a run. -/
def SpoilMeaning (bad : α → Prop) (coef1 coef2 coefP S : Mat α) (E : List α) (row1 row2 : Int) (r : Report α) : Prop :=
  ∀ ⦃N1 n1 N2 n2 M N K : Int⦄ ⦃c1 c2 C s : Int → Int → α⦄, Values coef1 N1 n1 c1 → Values coef2 N2 n2 c2 → Values coefP M N C → Values S K N s →
    Spoiled bad n1 n2 M N K (c1 row1) (c2 row2) C s (fun m => E.getD (m - 1).toNat 0) r

end Verif.Machine
