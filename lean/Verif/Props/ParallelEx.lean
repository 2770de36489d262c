import Verif.Props.Parallel
import Verif.Props.SpoilEx
/-
Examples for C151.
-/
namespace Verif.ParallelEx
open Strings Readers QC Mat Log Pun Job Args Machine Sample SpoilEx

/-- C151: one orbital asked for twice; with numbers that are rational or none, the effective coupling is none. -/
def orb : Mat Nan := ⟨1, 2, 1, [some (.num (3 / 5)), some (.num (4 / 5))]⟩
def unit : Mat Nan := ⟨2, 2, 1, [some (.num 1), some (.num 0), some (.num 0), some (.num 1)]⟩

example : transferReport orb orb unit unit levels true = .ok ⟨.num (53 / 25), .num (53 / 25), .num (53 / 25), .num 1, .nan⟩ := by decide +kernel

example : ∃ r, transferReport orb orb unit unit levels true = .ok r ∧ r.ea = r.jab ∧ r.eb = r.jab ∧ r.jeff = .nan := by
  obtain ⟨r, h, e⟩ := C151_same (coef1 := orb) (coef2 := orb) (coefP := unit) (S := unit) (oe := levels) (n := 2) (M := 2) (N := 2) (u := fun j => entry orb 1 j)
    (v := fun j => entry orb 1 j) (C := entry unit) (s := entry unit) (E := fun i => entry levels i 1)
    (Values.of_table (by decide +kernel)) (Values.of_table (by decide +kernel)) (Values.of_table (by decide +kernel)) (Values.of_table (by decide +kernel))
    (Or.inl (Values.of_table (by decide +kernel))) (fun _ _ _ => rfl)
  have c : transferReport orb orb unit unit levels true = .ok ⟨.num (53 / 25), .num (53 / 25), .num (53 / 25), .num 1, .nan⟩ := by decide +kernel
  have hr := Res.ok.inj (h.symm.trans c)
  refine ⟨r, h, e.1, e.2.1, C151_nan (bad := fun x => x = .nan) (by decide +kernel) ?_ e (by rw [hr]; rfl)⟩
  rw [hr]
  constructor <;> decide +kernel

/-- The same in exact arithmetic, where a quotient by zero is zero: the overlap is 1. -/
def orbQ : Mat Rat := ⟨1, 2, 1, [some (3 / 5), some (4 / 5)]⟩
def orbN : Mat Rat := ⟨1, 2, 1, [some (-3 / 5), some (-4 / 5)]⟩
def unitQ : Mat Rat := ⟨2, 2, 1, [some 1, some 0, some 0, some 1]⟩
def levelsQ : Mat Rat := ⟨2, 1, 1, [some (-3), some 5]⟩

example : ∃ r, transferReport orbQ orbN unitQ unitQ levelsQ true = .ok r ∧ r.sab ^ 2 = 1 ∧ r.eb = r.ea ∧ r.jab = r.sab * r.ea := by
  obtain ⟨r, h, k⟩ := C151_report (coef1 := orbQ) (coef2 := orbN) (coefP := unitQ) (S := unitQ) (oe := levelsQ) (cp := true) (n1 := 2) (n2 := 2) (M := 2) (N := 2) (K := 2)
    (u := fun j => if j = 1 then 3 / 5 else 4 / 5) (v := fun j => if j = 1 then -3 / 5 else -4 / 5) (C := fun p q => if p = q then 1 else 0)
    (s := fun p q => if p = q then 1 else 0) (E := fun m => if m = 1 then -3 else 5)
    (Values.of_table (by decide +kernel)) (Values.of_table (by decide +kernel)) (Values.of_table (by decide +kernel)) (Values.of_table (by decide +kernel))
    (Or.inl (Values.of_table (by decide +kernel))) (by decide) (by unfold Normed; decide +kernel) (by unfold Normed; decide +kernel)
  have o : r.sab ^ 2 = 1 := k.iff.2 (.inr (by intro m a b; obtain rfl | rfl : m = 1 ∨ m = 2 := by omega
                                              all_goals decide +kernel))
  exact ⟨r, h, o, k.energies o⟩

section
variable {D : Type} [Args.Dbl D]

/-- C151 on a sample command line with counterpoise: HOMO of the molecule, from two files that list its atoms in different orders. -/
example : ∃ fuel par r coef1 coef2 coefP S eP row1 row2, calcJRun D (id : Rat → Rat) filesS fuel
      [(lit "-cp"), (lit "-p_P"), (lit "P.pun"), (lit "-p_1"), (lit "F.pun"), (lit "-p_2"), (lit "P.pun")] = .ok (par, r) ∧
    TablesOf (id : Rat → Rat) filesS fuel par coef1 coef2 coefP S eP row1 row2 ∧
    (OneOrbital coef1 coef2 row1 row2 → (r.ea = r.jab ∧ r.eb = r.jab) ∧ (UnitAt r.jab → ∀ bad : Rat → Prop, bad (0 / 0) → r.sab = 1 → bad r.jeff)) := by
  obtain ⟨par, r, ⟨-, N, h⟩, -⟩ := C105_numbers_cp D exact_rounds (id : Rat → Rat) filesS intelligibleC meantC rfl (spinP := .alpha) (spin1 := .alpha) (spin2 := .alpha)
    rfl rfl rfl monomerF (listed_of dimerP) dimerP (by decide) rfl (by simp) (n1 := 0) (n2 := 0) (row1 := 2) (row2 := 2) rfl rfl
    (.inl (by decide)) (.inl (by decide)) (by decide) (by decide)
  have h := h N le_rfl
  have cp : par.counterPoise = true := by
    obtain ⟨q, h1, h2, -⟩ := C82_sound (id : Rat → Rat) filesS N _ h
    have : (Args.parse (fsOf filesS) (Args.calcJ (D := D)) [(lit "-cp"), (lit "-p_P"), (lit "P.pun"), (lit "-p_1"), (lit "F.pun"), (lit "-p_2"), (lit "P.pun")]
      >>= Args.prepareParameters >>= fun p => Res.ok p.counterPoise) = .ok true := by kernel_rfl
    rw [h1, Res.ok_bind, h2, Res.ok_bind] at this
    exact Res.ok.inj this
  obtain ⟨coef1, coef2, coefP, S, eP, row1, row2, t, k⟩ := C151_run _ _ _ _ h cp
  exact ⟨N, par, r, coef1, coef2, coefP, S, eP, row1, row2, h, t, k⟩

end

end Verif.ParallelEx
