import Verif.Props.Rounding
import Verif.ConcreteEnd
import Mathlib.Data.Int.Log
import Mathlib.Data.Rat.Floor
/-
Concrete arithmetics that meet the hypotheses of C105: binary floating point with any number of digits, and exact arithmetic. No general
theorem uses this file.
-/
namespace Verif.Machine
open Verif.Machine

namespace Fl

/-- `x ≥ 0` with the binary digits after the first `p + 1` cut off. -/
def cut (p : Nat) (x : Rat) : Rat := (⌊x * 2 ^ ((p : Int) - Int.log 2 x)⌋ : Rat) / 2 ^ ((p : Int) - Int.log 2 x)

theorem cut_bounds (p : Nat) {x : Rat} (hx : 0 < x) : cut p x ≤ x ∧ (2 : Rat) ^ Int.log 2 x ≤ cut p x ∧ x - cut p x ≤ (1 / 2) ^ p * x := by
  have h1 : (2 : Rat) ^ Int.log 2 x ≤ x := by have := Int.zpow_log_le_self (b := 2) (by norm_num) hx; push_cast at this; exact this
  have hpos : (0 : Rat) < 2 ^ ((p : Int) - Int.log 2 x) := zpow_pos (by norm_num) _
  refine ⟨?_, ?_, ?_⟩
  · unfold cut; rw [div_le_iff₀ hpos]; exact Int.floor_le _
  · unfold cut
    rw [le_div_iff₀ hpos, ← zpow_add₀ (by norm_num), add_sub_cancel]
    have : ((2 ^ p : Int) : Rat) ≤ ⌊x * 2 ^ ((p : Int) - Int.log 2 x)⌋ := by
      rw [Int.cast_le, Int.le_floor]
      push_cast
      calc (2 : Rat) ^ p = 2 ^ Int.log 2 x * 2 ^ ((p : Int) - Int.log 2 x) := by
            rw [← zpow_add₀ (by norm_num), add_sub_cancel, zpow_natCast]
        _ ≤ _ := mul_le_mul_of_nonneg_right h1 hpos.le
    push_cast at this
    rw [zpow_natCast]; exact this
  · have h2 : x - cut p x ≤ 1 / 2 ^ ((p : Int) - Int.log 2 x) := by
      unfold cut
      rw [sub_le_iff_le_add, ← add_div, le_div_iff₀ hpos]
      have := Int.lt_floor_add_one (x * (2 : Rat) ^ ((p : Int) - Int.log 2 x))
      linarith
    refine h2.trans ?_
    rw [one_div, ← zpow_neg, neg_sub, zpow_sub₀ (by norm_num), zpow_natCast, div_eq_mul_inv, mul_comm, one_div, inv_pow]
    exact mul_le_mul_of_nonneg_left h1 (by positivity)

theorem cut_log (p : Nat) {x : Rat} (hx : 0 < x) : 0 < cut p x ∧ Int.log 2 (cut p x) = Int.log 2 x := by
  obtain ⟨h1, h2, -⟩ := cut_bounds p hx
  have hc : 0 < cut p x := lt_of_lt_of_le (zpow_pos (by norm_num) _) h2
  refine ⟨hc, le_antisymm (Int.log_mono_right hc h1) ?_⟩
  rw [← Int.zpow_le_iff_le_log (b := 2) (by norm_num) hc]
  push_cast; exact h2

theorem cut_zero (p : Nat) : cut p 0 = 0 := by unfold cut; simp

theorem cut_idem (p : Nat) {x : Rat} (hx : 0 ≤ x) : cut p (cut p x) = cut p x := by
  rcases hx.eq_or_lt with h | h
  · rw [← h, cut_zero, cut_zero]
  · obtain ⟨-, hl⟩ := cut_log p h
    have hne : (2 : Rat) ^ ((p : Int) - Int.log 2 x) ≠ 0 := zpow_ne_zero _ (by norm_num)
    rw [cut, hl]
    conv_lhs => rw [cut, div_mul_cancel₀ _ hne, Int.floor_intCast]
    rfl

theorem cut_pow (p : Nat) (k : Int) : cut p (2 ^ k) = 2 ^ k := by
  have hl : Int.log 2 ((2 : Rat) ^ k) = k := by have := Int.log_zpow (R := Rat) (b := 2) (by norm_num) k; push_cast at this; exact this
  have hne : (2 : Rat) ^ ((p : Int) - k) ≠ 0 := zpow_ne_zero _ (by norm_num)
  rw [cut, hl, ← zpow_add₀ (by norm_num), add_sub_cancel, zpow_natCast]
  have : ((2 : Rat) ^ p) = ((2 ^ p : Int) : Rat) := by push_cast; rfl
  rw [this, Int.floor_intCast, ← this, div_eq_iff hne, ← zpow_add₀ (by norm_num), add_sub_cancel, zpow_natCast]

/-- Binary floating point numbers with `p + 1` digits and unbounded exponents, rounding towards zero. -/
def binary (p : Nat) : Rounding where
  rnd x := if x < 0 then -cut p (-x) else cut p x
  odd x := by
    rcases lt_trichotomy x 0 with h | h | h
    · rw [if_pos h, if_neg (by linarith), neg_neg]
    · subst h; simp [cut_zero]
    · rw [if_pos (by linarith), if_neg (by linarith), neg_neg]
  idem x := by
    have nn : ∀ y : Rat, 0 ≤ y → 0 ≤ cut p y := by
      intro y hy
      rcases hy.eq_or_lt with h | h
      · rw [← h, cut_zero]
      · exact (cut_log p h).1.le
    by_cases h : x < 0
    · rw [if_pos h, if_pos (by have := (cut_log p (show 0 < -x by linarith)).1; linarith), neg_neg, cut_idem p (by linarith)]
    · rw [if_neg h, if_neg (by have := nn x (by linarith); linarith), cut_idem p (by linarith)]
  one := by rw [if_neg (by norm_num)]; have := cut_pow p 0; rwa [zpow_zero] at this

theorem binary_err (p : Nat) (x : Rat) : |(binary p).rnd x - x| ≤ (1 / 2) ^ p * |x| := by
  have key : ∀ y : Rat, 0 < y → |cut p y - y| ≤ (1 / 2) ^ p * |y| := by
    intro y hy
    obtain ⟨h1, -, h3⟩ := cut_bounds p hy
    rw [abs_sub_comm, abs_of_nonneg (by linarith), abs_of_pos hy]; exact h3
  show |(if x < 0 then -cut p (-x) else cut p x) - x| ≤ _
  rcases lt_trichotomy x 0 with h | h | h
  · rw [if_pos h]
    have := key (-x) (by linarith)
    rw [abs_neg] at this
    rw [show -cut p (-x) - x = -(cut p (-x) - -x) by ring, abs_neg]; exact this
  · subst h; simp [cut_zero]
  · rw [if_neg (by linarith)]; exact key x h

/-- The number a machine number stands for. -/
def toRat {r : Rounding} (x : Fl r) : Rat := x.1

/-- Binary floating point arithmetic with `p + 1` digits has a relative error of at most `2⁻ᵖ`. -/
theorem binary_rounds (p : Nat) : Rounds ((1 / 2) ^ p : Rat) (toRat (r := binary p)) where
  nonneg := by positivity
  zero := rfl
  one := rfl
  half := by
    have h2 : (binary p).rnd (1 + 1) = 2 := by
      show (if (1 + 1 : Rat) < 0 then _ else cut p (1 + 1)) = 2
      rw [if_neg (by norm_num)]
      have := cut_pow p 1
      rw [zpow_one] at this
      norm_num; exact this
    show (binary p).rnd (1 / (binary p).rnd (1 + 1)) = 1 / 2
    rw [h2]
    show (if (1 / 2 : Rat) < 0 then _ else cut p (1 / 2)) = 1 / 2
    rw [if_neg (by norm_num)]
    have := cut_pow p (-1)
    rw [zpow_neg_one] at this
    rw [one_div]; exact this
  add a b := binary_err p _
  sub a b := binary_err p _
  mul a b := binary_err p _
  div a b _ := binary_err p _

end Fl

/-- Exact arithmetic has no error. -/
theorem exact_rounds : Rounds (0 : Rat) (id : Rat → Rat) := by
  constructor <;> intros <;> simp <;> norm_num

end Verif.Machine

namespace Verif
open Strings Readers QC Mat Log Pun Job Args Machine

namespace Sample

instance {r : Rounding} : DecidableEq (Fl r) := fun a b => decidable_of_iff (a.1 = b.1) Subtype.ext_iff.symm

/-- A machine with as many digits as `double`. -/
abbrev Dbl53 := Fl (Fl.binary 52)

def dOne : Mat Dbl53 := ⟨1, 1, 1, [some 1]⟩
def dDimer : Mat Dbl53 := ⟨2, 2, 1, [some 1, some (-1), some 0, some 1]⟩
def dS : Mat Dbl53 := ⟨2, 2, 1, [some 1, some 0, some 1, some 1]⟩
def dE : Mat Dbl53 := ⟨2, 1, 1, [some (-1), some 1]⟩

end Sample
open Sample

/-- C105 for doubles (with unbounded exponents): the sizes fit. -/
example : ∃ r, transferReport dOne dOne dDimer dS dE false = .ok r ∧
    Accurate ((1 / 2) ^ 52 : Rat) Fl.toRat r 2 2 2 (zetaA false 1 fun _ => 1) (zetaB false 1 fun _ => 1)
      (fun p q => Fl.toRat (if p = 1 ∧ q = 2 then (0 : Dbl53) else 1)) (fun p q => Fl.toRat (if p = 1 then (if q = 1 then (1 : Dbl53) else -1) else if q = 1 then 0 else 1))
      (fun m => Fl.toRat (if m = 1 then (-1 : Dbl53) else 1)) :=
  C105_report (Fl.binary_rounds 52) (u := fun _ => 1) (v := fun _ => 1) (n1 := 1) (n2 := 1)
    (C := fun p q => if p = 1 then (if q = 1 then (1 : Dbl53) else -1) else if q = 1 then 0 else 1)
    (s := fun p q => if p = 1 ∧ q = 2 then (0 : Dbl53) else 1) (E := fun m => if m = 1 then (-1 : Dbl53) else 1)
    (Values.of_table (by decide +kernel)) (Values.of_table (by decide +kernel)) (Values.of_table (by decide +kernel)) (Values.of_table (by decide +kernel))
    (Or.inl (Values.of_table (by decide +kernel))) (by decide)

section
variable {D : Type} [Args.Dbl D]

/-- C105 on the sample command line. -/
example : ∃ par r, Ends (fun fuel => calcJRun D (id : Rat → Rat) filesS fuel [(lit "-p_P"), (lit "P.pun"), (lit "-p_1"), (lit "1.pun"), (lit "-p_2"), (lit "2.pun")])
    (.ok (par, r)) ∧ Accurate (0 : Rat) id r ([2] ++ [2] : List Int).sum ([2] ++ [2] : List Int).sum (energies energiesP).length
      (zetaA false ([2] : List Int).sum fun p => coefOf orbs1 1 p) (zetaB false ([2] : List Int).sum fun p => coefOf orbs2 1 p) alignedS alignedC
      (energyOf energiesP) :=
  C105_numbers D exact_rounds (id : Rat → Rat) filesS intelligibleA meantA rfl (spinP := .alpha) (spin1 := .alpha) (spin2 := .alpha) rfl rfl rfl
    monomer1 monomer2 dimerP (by decide) (by decide) rfl rfl (by simp) (by simp) (n1 := 0) (n2 := 0) (row1 := 1) (row2 := 1) rfl rfl
    (.inl (by decide)) (.inl (by decide)) (by decide) (by decide)

/-- C105 with counterpoise. -/
example : ∃ par r, Ends (fun fuel => calcJRun D (id : Rat → Rat) filesS fuel
      [(lit "-cp"), (lit "-p_P"), (lit "P.pun"), (lit "-p_1"), (lit "F.pun"), (lit "-p_2"), (lit "P.pun")])
    (.ok (par, r)) ∧ Accurate (0 : Rat) id r ([2, 2] : List Int).sum ([2, 2] : List Int).sum (energies energiesP).length
      (coefOf orbsFull 2) (alignedC 2) alignedS alignedC (energyOf energiesP) :=
  C105_numbers_cp D exact_rounds (id : Rat → Rat) filesS intelligibleC meantC rfl (spinP := .alpha) (spin1 := .alpha) (spin2 := .alpha) rfl rfl rfl
    monomerF (listed_of dimerP) dimerP (by decide) rfl (by simp) (n1 := 0) (n2 := 0) (row1 := 2) (row2 := 2) rfl rfl
    (.inl (by decide)) (.inl (by decide)) (by decide) (by decide)

end
end Verif
