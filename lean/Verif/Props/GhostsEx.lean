import Verif.Props.Ghosts
import Verif.ConcreteRounding
/-
Examples for C150.
-/
namespace Verif.GhostsEx
open Strings Readers QC Mat Machine Sample

def one : Mat Dbl53 := ⟨1, 1, 1, [some 1]⟩
def left : Mat Dbl53 := ⟨1, 2, 1, [some 1, some 0]⟩
def right : Mat Dbl53 := ⟨1, 2, 1, [some 0, some 1]⟩

/-- C150 for doubles: the sample job of C105, plain and with counterpoise. -/
example : ∃ r, transferReport one one dDimer dS dE false = .ok r ∧ transferReport left right dDimer dS dE true = .ok r :=
  C150_report (u := fun _ => 1) (v := fun _ => 1) (n1 := 1) (n2 := 1) (M := 2) (N := 2)
    (C := fun p q => if p = 1 then (if q = 1 then (1 : Dbl53) else -1) else if q = 1 then 0 else 1)
    (s := fun p q => if p = 1 ∧ q = 2 then (0 : Dbl53) else 1) (E := fun m => if m = 1 then (-1 : Dbl53) else 1)
    (Values.of_table (by decide +kernel)) (Values.of_table (by decide +kernel)) (Values.of_table (by decide +kernel)) (Values.of_table (by decide +kernel))
    (Values.of_table (by decide +kernel)) (Values.of_table (by decide +kernel)) (Or.inl (Values.of_table (by decide +kernel)))

/-- C150 for reports: the orbital of monomer 1 is the second one in the counterpoise calculation. -/
example {r r' : Report Dbl53} (h : MachineReport false one one dDimer dS [-1, 1] 1 1 r)
    (h' : MachineReport true ⟨2, 2, 1, [some (-1), some 1, some 1, some 0]⟩ right dDimer dS [-1, 1] 2 1 r') : r' = r := by
  refine h.ghosts h' ⟨rfl, rfl, ⟨rfl, rfl, rfl, rfl, rfl, rfl⟩, ?_, ?_, ?_, ?_, fun _ _ _ _ _ _ => rfl, fun _ _ _ _ _ _ => rfl, rfl⟩ <;>
    (intro j a b; have b' : j ≤ 1 := b; obtain rfl : j = 1 := by omega) <;> rfl

/-- Such reports exist. -/
example : ∃ r, MachineReport false one one dDimer dS [-1, 1] 1 1 r :=
  ⟨_, 1, 1, 1, 1, 2, 2, 2, fun _ _ => 1, fun _ _ => 1, fun p q => if p = 1 then (if q = 1 then (1 : Dbl53) else -1) else if q = 1 then 0 else 1,
    fun p q => if p = 1 ∧ q = 2 then (0 : Dbl53) else 1, Values.of_table (by decide +kernel), Values.of_table (by decide +kernel), Values.of_table (by decide +kernel),
    Values.of_table (by decide +kernel), rfl, by decide, by decide, by decide, by decide, by decide, rfl⟩

def r1 : Mat Rat := ⟨1, 1, 1, [some 1]⟩
def unit : Mat Rat := ⟨2, 2, 1, [some 1, some 0, some 0, some 1]⟩
def levels : Mat Rat := ⟨2, 1, 1, [some (-1), some 2]⟩

/-- C150 with small ghost coefficients: (1, 0) and (0, 1) against (99/101, 20/101) and (0, 1). -/
example : ∃ r r', transferReport r1 r1 unit unit levels false = .ok r ∧
    transferReport (⟨1, 2, 1, [some (99 / 101), some (20 / 101)]⟩ : Mat Rat) ⟨1, 2, 1, [some 0, some 1]⟩ unit unit levels true = .ok r' ∧
    CloseReports ((((1 : Int) + 1 : Int) : Rat) * (20 / 101)) 0 (-1) 2 r r' :=
  C150_close (n1 := 1) (n2 := 1) (u := fun _ => 1) (v := fun _ => 1) (u' := fun j => if j = 1 then 99 / 101 else 20 / 101) (v' := fun j => if j = 1 then 0 else 1)
    (C := fun p q => if p = q then 1 else 0) (s := fun p q => if p = q then 1 else 0) (E := fun m => if m = 1 then -1 else 2)
    (Values.of_table (by decide +kernel)) (Values.of_table (by decide +kernel)) (Values.of_table (by decide +kernel)) (Values.of_table (by decide +kernel))
    (Values.of_table (by decide +kernel)) (Values.of_table (by decide +kernel)) (Or.inl (Values.of_table (by decide +kernel)))
    (by intro m n a b c d; obtain rfl | rfl : m = 1 ∨ m = 2 := by omega
        all_goals (obtain rfl | rfl : n = 1 ∨ n = 2 := by omega)
        all_goals decide +kernel) (by intro p q _ _ _ _; beta_reduce; split <;> norm_num) (by decide +kernel) (by decide +kernel) (by decide +kernel) (by decide +kernel) (by norm_num)
    (by intro j a b; obtain rfl | rfl : j = 1 ∨ j = 2 := by omega
        all_goals decide +kernel)
    (by intro j a b; obtain rfl | rfl : j = 1 ∨ j = 2 := by omega
        all_goals decide +kernel)
    (by intro j a b; obtain rfl | rfl : j = 1 ∨ j = 2 := by omega
        all_goals decide +kernel)

end Verif.GhostsEx
