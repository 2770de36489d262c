import Verif.Spec.Split
import Verif.Props.PhysicsB
import Mathlib.Algebra.Order.BigOperators.Ring.Finset
import Mathlib.Tactic.LinearCombination
import Mathlib.Tactic.FieldSimp
import Mathlib.Tactic.Positivity
import Mathlib.Tactic.Linarith
import Mathlib.Tactic.FinCases
import Mathlib.Tactic.NormNum
import Mathlib.Tactic.ByContra
import Mathlib.Tactic.Push
/-
C143: the splitting of the dimer's levels.
-/
namespace Verif
open Strings Readers QC Mat Finset

/-! ### two levels -/

section
variable {α : Type} [Field α]

theorem sum_two {M p q : Int} {f : Int → α} (hp : 1 ≤ p) (hpq : p < q) (hq : q ≤ M) (h : ∀ m, 1 ≤ m → m ≤ M → m ≠ p → m ≠ q → f m = 0) :
    ∑ m ∈ Icc 1 M, f m = f p + f q := by
  rw [Finset.sum_eq_add_of_mem p q (mem_Icc.2 ⟨hp, by omega⟩) (mem_Icc.2 ⟨by omega, hq⟩) (by omega)]
  intro m hm hn
  rw [mem_Icc] at hm
  exact h m hm.1 hm.2 hn.1 hn.2

/-- The identity, in the sum and the difference of the orbitals. -/
theorem two_levels {P Q A B X m1 m2 d1 d2 x y : α} (hP : P = m1 ^ 2 + m2 ^ 2) (hQ : Q = d1 ^ 2 + d2 ^ 2) (hA : A = m1 ^ 2 * x + m2 ^ 2 * y)
    (hB : B = d1 ^ 2 * x + d2 ^ 2 * y) (hX : X = m1 * d1 * x + m2 * d2 * y) (ho : m1 * d1 + m2 * d2 = 0) (p0 : P ≠ 0) (q0 : Q ≠ 0) :
    (A / P - B / Q) ^ 2 + 4 * X ^ 2 / (P * Q) = (y - x) ^ 2 := by
  have hk : m1 * d1 = -(m2 * d2) := eq_neg_of_add_eq_zero_left ho
  have e1 : A * Q - B * P = (y - x) * ((m2 * d1) ^ 2 - (m1 * d2) ^ 2) := by rw [hA, hB, hP, hQ]; ring
  have e2 : P * Q = (m2 * d1) ^ 2 + (m1 * d2) ^ 2 + 2 * (m2 * d2) ^ 2 := by
    rw [hP, hQ]
    linear_combination (m1 * d1 - m2 * d2) * ho
  have e3 : X = (y - x) * (m2 * d2) := by rw [hX, hk]; ring
  have e4 : (m2 * d1) * (m1 * d2) = -(m2 * d2) ^ 2 := by linear_combination m2 * d2 * hk
  have e5 : A / P - B / Q = (A * Q - B * P) / (P * Q) := by field_simp
  rw [e5, e1, e3, div_pow, div_add_div _ _ (pow_ne_zero 2 (mul_ne_zero p0 q0)) (mul_ne_zero p0 q0), div_eq_iff (mul_ne_zero (pow_ne_zero 2 (mul_ne_zero p0 q0)) (mul_ne_zero p0 q0)), e2]
  generalize m2 * d1 = u at *
  generalize m1 * d2 = v at *
  generalize m2 * d2 = k at *
  have e6 : (u * v) ^ 2 = (k ^ 2) ^ 2 := by rw [e4]; ring
  linear_combination (-4 * (y - x) ^ 2 * (u ^ 2 + v ^ 2 + 2 * k ^ 2)) * e6

/-- The sum of the mean energies. -/
theorem two_sum {P Q A B m1 m2 d1 d2 x y : α} (hP : P = m1 ^ 2 + m2 ^ 2) (hQ : Q = d1 ^ 2 + d2 ^ 2) (hA : A = m1 ^ 2 * x + m2 ^ 2 * y)
    (hB : B = d1 ^ 2 * x + d2 ^ 2 * y) (ho : m1 * d1 + m2 * d2 = 0) (p0 : P ≠ 0) (q0 : Q ≠ 0) : A / P + B / Q = x + y := by
  rw [div_add_div _ _ p0 q0, div_eq_iff (mul_ne_zero p0 q0), hA, hB, hP, hQ]
  linear_combination (x - y) * (m1 * d1 - m2 * d2) * ho

/-- Coupling and site energies in the sum and the difference. -/
theorem split_halves {M : Int} {a b E : Int → α} (two : (2 : α) ≠ 0) (ha : Normed M a) (hb : Normed M b) (hs : overlapAB M a b ^ 2 ≠ 1) :
    (∑ m ∈ Icc 1 M, (a m + b m) ^ 2 ≠ 0 ∧ ∑ m ∈ Icc 1 M, (a m - b m) ^ 2 ≠ 0) ∧ ∑ m ∈ Icc 1 M, (a m + b m) * (a m - b m) = 0 ∧
    4 * (QC.reportOf M a b E).jeff ^ 2 + ((QC.reportOf M a b E).ea - (QC.reportOf M a b E).eb) ^ 2 / (1 - (QC.reportOf M a b E).sab ^ 2) =
      ((∑ m ∈ Icc 1 M, (a m + b m) ^ 2 * E m) / ∑ m ∈ Icc 1 M, (a m + b m) ^ 2 -
          (∑ m ∈ Icc 1 M, (a m - b m) ^ 2 * E m) / ∑ m ∈ Icc 1 M, (a m - b m) ^ 2) ^ 2 +
        4 * (∑ m ∈ Icc 1 M, (a m + b m) * (a m - b m) * E m) ^ 2 / ((∑ m ∈ Icc 1 M, (a m + b m) ^ 2) * ∑ m ∈ Icc 1 M, (a m - b m) ^ 2) := by
  obtain ⟨h1, h2, -, -⟩ := halves (E := E) ha hb
  have k1 : 1 + overlapAB M a b ≠ 0 := fun h => hs (by linear_combination (overlapAB M a b - 1) * h)
  have k2 : 1 - overlapAB M a b ≠ 0 := fun h => hs (by linear_combination -(overlapAB M a b + 1) * h)
  have k3 : 1 - overlapAB M a b ^ 2 ≠ 0 := fun h => hs (sub_eq_zero.1 h).symm
  have x0 : ∑ m ∈ Icc 1 M, (a m + b m) * (a m - b m) = 0 := by
    have : ∑ m ∈ Icc 1 M, (a m + b m) * (a m - b m) = ∑ m ∈ Icc 1 M, a m ^ 2 - ∑ m ∈ Icc 1 M, b m ^ 2 := by
      rw [← Finset.sum_sub_distrib]
      exact Finset.sum_congr rfl fun m _ => by ring
    unfold Normed at ha hb
    rw [this, ha, hb, sub_self]
  have xe : ∑ m ∈ Icc 1 M, (a m + b m) * (a m - b m) * E m = siteEnergy M a E - siteEnergy M b E := by
    unfold siteEnergy
    rw [← Finset.sum_sub_distrib]
    exact Finset.sum_congr rfl fun m _ => by ring
  have hj := coupling_halves (E := E) two ha hb hs
  unfold meanEnergy at hj
  refine ⟨⟨?_, ?_⟩, x0, ?_⟩
  · rw [h1]; exact mul_ne_zero two k1
  · rw [h2]; exact mul_ne_zero two k2
  · show 4 * QC.coupling M a b E ^ 2 + (siteEnergy M a E - siteEnergy M b E) ^ 2 / (1 - overlapAB M a b ^ 2) = _
    rw [hj, xe]
    generalize (∑ m ∈ Icc 1 M, (a m + b m) ^ 2 * E m) / ∑ m ∈ Icc 1 M, (a m + b m) ^ 2 = e
    generalize (∑ m ∈ Icc 1 M, (a m - b m) ^ 2 * E m) / ∑ m ∈ Icc 1 M, (a m - b m) ^ 2 = f
    rw [h1, h2, show 1 - overlapAB M a b ^ 2 = (1 + overlapAB M a b) * (1 - overlapAB M a b) by ring]
    field_simp
    ring

/-- Two levels: exactly. -/
theorem reportOf_two {M p q : Int} {a b E : Int → α} (two : (2 : α) ≠ 0) (ha : Normed M a) (hb : Normed M b) (hp : 1 ≤ p) (hpq : p < q) (hq : q ≤ M)
    (oa : OnlyTwo M p q a) (ob : OnlyTwo M p q b) : SplitExactly (E q - E p) (QC.reportOf M a b E) := by
  have key : (QC.reportOf M a b E).sab ^ 2 ≠ 1 → 4 * (QC.reportOf M a b E).jeff ^ 2 +
      ((QC.reportOf M a b E).ea - (QC.reportOf M a b E).eb) ^ 2 / (1 - (QC.reportOf M a b E).sab ^ 2) = (E q - E p) ^ 2 := by
    intro hs
    obtain ⟨⟨p0, q0⟩, x0, e⟩ := split_halves (E := E) two ha hb hs
    rw [e]
    have z : ∀ m, 1 ≤ m → m ≤ M → m ≠ p → m ≠ q → a m = 0 ∧ b m = 0 := fun m h h' h1 h2 => ⟨oa m h h' h1 h2, ob m h h' h1 h2⟩
    refine two_levels (m1 := a p + b p) (m2 := a q + b q) (d1 := a p - b p) (d2 := a q - b q) (x := E p) (y := E q) ?_ ?_ ?_ ?_ ?_ ?_ p0 q0
    · exact sum_two hp hpq hq fun m h h' h1 h2 => by obtain ⟨z1, z2⟩ := z m h h' h1 h2; simp only [z1, z2]; ring
    · exact sum_two hp hpq hq fun m h h' h1 h2 => by obtain ⟨z1, z2⟩ := z m h h' h1 h2; simp only [z1, z2]; ring
    · exact sum_two hp hpq hq fun m h h' h1 h2 => by obtain ⟨z1, z2⟩ := z m h h' h1 h2; simp only [z1, z2]; ring
    · exact sum_two hp hpq hq fun m h h' h1 h2 => by obtain ⟨z1, z2⟩ := z m h h' h1 h2; simp only [z1, z2]; ring
    · exact sum_two hp hpq hq fun m h h' h1 h2 => by obtain ⟨z1, z2⟩ := z m h h' h1 h2; simp only [z1, z2]; ring
    · rw [← x0]
      exact (sum_two (f := fun m => (a m + b m) * (a m - b m)) hp hpq hq fun m h h' h1 h2 => by
        obtain ⟨z1, z2⟩ := z m h h' h1 h2; simp only [z1, z2]; ring).symm
  refine ⟨key, fun hs he => ?_⟩
  have h := key hs
  rw [he, sub_self, zero_pow two_ne_zero, zero_div, add_zero] at h
  have : (2 * (QC.reportOf M a b E).jeff) ^ 2 = (E q - E p) ^ 2 := by linear_combination h
  exact sq_eq_sq_iff_eq_or_eq_neg.1 this

/-- The sum of the two levels. -/
theorem reportOf_sum {M p q : Int} {a b E : Int → α} (two : (2 : α) ≠ 0) (ha : Normed M a) (hb : Normed M b) (hp : 1 ≤ p) (hpq : p < q) (hq : q ≤ M)
    (oa : OnlyTwo M p q a) (ob : OnlyTwo M p q b) (hs : overlapAB M a b ^ 2 ≠ 1) :
    (siteEnergy M a E + siteEnergy M b E - 2 * couplingJ M a b E * overlapAB M a b) / (1 - overlapAB M a b ^ 2) = E p + E q := by
  obtain ⟨⟨p0, q0⟩, x0, -⟩ := split_halves (E := E) two ha hb hs
  obtain ⟨h1, h2, h3, h4⟩ := halves (E := E) ha hb
  have z : ∀ m, 1 ≤ m → m ≤ M → m ≠ p → m ≠ q → a m = 0 ∧ b m = 0 := fun m h h' h1 h2 => ⟨oa m h h' h1 h2, ob m h h' h1 h2⟩
  have t := two_sum (P := ∑ m ∈ Icc 1 M, (a m + b m) ^ 2) (Q := ∑ m ∈ Icc 1 M, (a m - b m) ^ 2) (A := ∑ m ∈ Icc 1 M, (a m + b m) ^ 2 * E m)
    (B := ∑ m ∈ Icc 1 M, (a m - b m) ^ 2 * E m) (m1 := a p + b p) (m2 := a q + b q) (d1 := a p - b p) (d2 := a q - b q) (x := E p) (y := E q)
    (sum_two hp hpq hq fun m h h' h1 h2 => by obtain ⟨z1, z2⟩ := z m h h' h1 h2; simp only [z1, z2]; ring)
    (sum_two hp hpq hq fun m h h' h1 h2 => by obtain ⟨z1, z2⟩ := z m h h' h1 h2; simp only [z1, z2]; ring)
    (sum_two hp hpq hq fun m h h' h1 h2 => by obtain ⟨z1, z2⟩ := z m h h' h1 h2; simp only [z1, z2]; ring)
    (sum_two hp hpq hq fun m h h' h1 h2 => by obtain ⟨z1, z2⟩ := z m h h' h1 h2; simp only [z1, z2]; ring)
    (by
      rw [← x0]
      exact (sum_two (f := fun m => (a m + b m) * (a m - b m)) hp hpq hq fun m h h' h1 h2 => by
        obtain ⟨z1, z2⟩ := z m h h' h1 h2; simp only [z1, z2]; ring).symm) p0 q0
  rw [← t, h1, h2, h3, h4]
  have k1 : 1 + overlapAB M a b ≠ 0 := fun h => hs (by linear_combination (overlapAB M a b - 1) * h)
  have k2 : 1 - overlapAB M a b ≠ 0 := fun h => hs (by linear_combination -(overlapAB M a b + 1) * h)
  rw [show 1 - overlapAB M a b ^ 2 = (1 + overlapAB M a b) * (1 - overlapAB M a b) by ring]
  field_simp
  ring

/-- C143 (two levels): the dimer's orbitals that have a part of the monomer orbitals are two - the bonding and the antibonding combination, say -
and the monomer orbitals are normalised in them. Then four times the square of the coupling, and the square of the difference of the site energies over
`1 - S²`, are together the square of the splitting of the two levels; for site energies that are equal the coupling is half the splitting. -/
theorem C143_two_levels {coef1 coef2 coefP S oe : Mat α} {cp : Bool} {n1 n2 M N K p q : Int} {u v : Int → α} {C s : Int → Int → α} {E : Int → α} (two : (2 : α) ≠ 0)
    (h1 : Values coef1 1 n1 (fun _ j => u j)) (h2 : Values coef2 1 n2 (fun _ j => v j)) (hP : Values coefP M N C)
    (hS : Values S K N s) (hE : VectorOf oe M E) (hc : Conforming cp n1 n2 K) (ha : Normed M (proj K N (zetaA cp n1 u) s C))
    (hb : Normed M (proj K N (zetaB cp n1 v) s C)) (hp : 1 ≤ p) (hpq : p < q) (hq : q ≤ M) (oa : OnlyTwo M p q (proj K N (zetaA cp n1 u) s C))
    (ob : OnlyTwo M p q (proj K N (zetaB cp n1 v) s C)) :
    ∃ r, transferReport coef1 coef2 coefP S oe cp = .ok r ∧ calculateTransferIntegral coef1 coef2 coefP S oe cp = .ok r.jeff ∧
      (r.sab ^ 2 ≠ 1 → 4 * r.jeff ^ 2 + (r.ea - r.eb) ^ 2 / (1 - r.sab ^ 2) = (E q - E p) ^ 2) ∧
      (r.sab ^ 2 ≠ 1 → r.ea = r.eb → 2 * r.jeff = E q - E p ∨ 2 * r.jeff = -(E q - E p)) := by
  have e := report_eq h1 h2 hP hS hE hc
  have k := reportOf_two (E := E) two ha hb hp hpq hq oa ob
  exact ⟨_, e, calculate_of_report e, k.split, k.half⟩

end

/-! ### any number of levels -/

section
variable {α : Type} [Field α] [LinearOrder α] [IsStrictOrderedRing α]

/-- Cauchy and Schwarz, with weights. -/
theorem weighted {M : Int} {w f g : Int → α} (hw : ∀ m, 1 ≤ m → m ≤ M → 0 ≤ w m) :
    (∑ m ∈ Icc 1 M, w m * f m * g m) ^ 2 ≤ (∑ m ∈ Icc 1 M, w m * f m ^ 2) * ∑ m ∈ Icc 1 M, w m * g m ^ 2 := by
  refine Finset.sum_sq_le_sum_mul_sum_of_sq_le_mul _ ?_ ?_ ?_
  · intro m hm; rw [mem_Icc] at hm; exact mul_nonneg (hw m hm.1 hm.2) (sq_nonneg _)
  · intro m hm; rw [mem_Icc] at hm; exact mul_nonneg (hw m hm.1 hm.2) (sq_nonneg _)
  · intro m _; exact le_of_eq (by ring)

theorem split_bound {e f x2 lo hi : α} (h1 : x2 ≤ (hi - e) * (hi - f)) (h2 : x2 ≤ (e - lo) * (f - lo)) (e1 : lo ≤ e) (e2 : e ≤ hi) (f1 : lo ≤ f) (f2 : f ≤ hi) :
    (e - f) ^ 2 + 4 * x2 ≤ (hi - lo) ^ 2 := by
  rcases le_total (e + f) (hi + lo) with h | h
  · have : (e - f) ^ 2 + 4 * x2 ≤ (e + f - 2 * lo) ^ 2 := by nlinarith
    nlinarith [mul_nonneg (sub_nonneg.2 h) (sub_nonneg.2 h)]
  · have : (e - f) ^ 2 + 4 * x2 ≤ (2 * hi - e - f) ^ 2 := by nlinarith
    nlinarith [mul_nonneg (sub_nonneg.2 h) (sub_nonneg.2 h)]

/-- Any number of levels: at most the range. -/
theorem reportOf_split {M : Int} {a b E : Int → α} {lo hi : α} (ha : Normed M a) (hb : Normed M b) (hE : ∀ m, 1 ≤ m → m ≤ M → lo ≤ E m ∧ E m ≤ hi) :
    SplitAtMost (hi - lo) (QC.reportOf M a b E) := by
  constructor
  · intro hs
    obtain ⟨⟨p0, q0⟩, x0, e⟩ := split_halves (E := E) two_ne_zero ha hb hs
    rw [e]
    have pp : 0 < ∑ m ∈ Icc 1 M, (a m + b m) ^ 2 := lt_of_le_of_ne (Finset.sum_nonneg fun m _ => sq_nonneg _) (Ne.symm p0)
    have qq : 0 < ∑ m ∈ Icc 1 M, (a m - b m) ^ 2 := lt_of_le_of_ne (Finset.sum_nonneg fun m _ => sq_nonneg _) (Ne.symm q0)
    obtain ⟨m1, m2⟩ := mean_range (g := fun m => a m + b m) hE pp
    obtain ⟨m3, m4⟩ := mean_range (g := fun m => a m - b m) hE qq
    unfold meanEnergy at m1 m2 m3 m4
    have w1 := weighted (w := fun m => hi - E m) (f := fun m => a m + b m) (g := fun m => a m - b m) fun m h h' => sub_nonneg.2 (hE m h h').2
    have w2 := weighted (w := fun m => E m - lo) (f := fun m => a m + b m) (g := fun m => a m - b m) fun m h h' => sub_nonneg.2 (hE m h h').1
    have s1 : ∀ f : Int → α, ∑ m ∈ Icc 1 M, (hi - E m) * f m = hi * (∑ m ∈ Icc 1 M, f m) - ∑ m ∈ Icc 1 M, f m * E m := fun f => by
      rw [Finset.mul_sum, ← Finset.sum_sub_distrib]; exact Finset.sum_congr rfl fun m _ => by ring
    have s2 : ∀ f : Int → α, ∑ m ∈ Icc 1 M, (E m - lo) * f m = (∑ m ∈ Icc 1 M, f m * E m) - lo * ∑ m ∈ Icc 1 M, f m := fun f => by
      rw [Finset.mul_sum, ← Finset.sum_sub_distrib]; exact Finset.sum_congr rfl fun m _ => by ring
    simp only [mul_assoc] at w1 w2
    rw [s1, s1, s1, x0] at w1
    rw [s2, s2, s2, x0] at w2
    generalize ∑ m ∈ Icc 1 M, (a m + b m) * (a m - b m) * E m = X at *
    generalize ∑ m ∈ Icc 1 M, (a m + b m) ^ 2 * E m = A at *
    generalize ∑ m ∈ Icc 1 M, (a m - b m) ^ 2 * E m = B at *
    generalize ∑ m ∈ Icc 1 M, (a m + b m) ^ 2 = P at *
    generalize ∑ m ∈ Icc 1 M, (a m - b m) ^ 2 = Q at *
    have pq := mul_pos pp qq
    rw [mul_div_assoc]
    refine split_bound ?_ ?_ m1 m2 m3 m4
    · rw [div_le_iff₀ pq]
      have : (hi - A / P) * (hi - B / Q) * (P * Q) = (hi * P - A) * (hi * Q - B) := by field_simp
      rw [this]
      linarith [w1, show (hi * 0 - X) ^ 2 = X ^ 2 by ring]
    · rw [div_le_iff₀ pq]
      have : (A / P - lo) * (B / Q - lo) * (P * Q) = (A - lo * P) * (B - lo * Q) := by field_simp
      rw [this]
      linarith [w2, show (X - lo * 0) ^ 2 = X ^ 2 by ring]
  · intro hs
    have hs' : overlapAB M a b ^ 2 = 1 := hs
    refine ⟨?_, ?_⟩
    · show QC.coupling M a b E = 0
      unfold QC.coupling; rw [hs', sub_self, div_zero]
    · show siteEnergy M a E = siteEnergy M b E
      obtain ⟨h1, h2, -, -⟩ := halves (E := E) ha hb
      have z : ∀ m, 1 ≤ m → m ≤ M → a m ^ 2 = b m ^ 2 := by
        have hor : overlapAB M a b = 1 ∨ overlapAB M a b = -1 := sq_eq_sq_iff_eq_or_eq_neg.1 (hs'.trans (one_pow 2).symm)
        rcases hor with h | h
        · rw [h, sub_self, mul_zero, Finset.sum_eq_zero_iff_of_nonneg fun m _ => sq_nonneg _] at h2
          intro m h h'
          have := pow_eq_zero_iff two_ne_zero |>.1 (h2 m (mem_Icc.2 ⟨h, h'⟩))
          rw [sub_eq_zero.1 this]
        · rw [h, add_neg_cancel, mul_zero, Finset.sum_eq_zero_iff_of_nonneg fun m _ => sq_nonneg _] at h1
          intro m h h'
          have := pow_eq_zero_iff two_ne_zero |>.1 (h1 m (mem_Icc.2 ⟨h, h'⟩))
          rw [eq_neg_of_add_eq_zero_left this]; ring
      unfold siteEnergy
      refine Finset.sum_congr rfl fun m hm => ?_
      rw [mem_Icc] at hm
      have := z m hm.1 hm.2
      linear_combination E m * this

omit [IsStrictOrderedRing α] in
/-- Energies of orbitals that have no part of either do not matter. -/
theorem reportOf_parts {M : Int} {a b E E' : Int → α} (h : ∀ m, 1 ≤ m → m ≤ M → a m ≠ 0 ∨ b m ≠ 0 → E' m = E m) :
    QC.reportOf M a b E' = QC.reportOf M a b E := by
  have k : ∀ m ∈ Icc 1 M, E' m = E m ∨ (a m = 0 ∧ b m = 0) := fun m hm => by
    rw [mem_Icc] at hm
    by_cases c : a m ≠ 0 ∨ b m ≠ 0
    · exact Or.inl (h m hm.1 hm.2 c)
    · push Not at c; exact Or.inr c
  have j : couplingJ M a b E' = couplingJ M a b E := Finset.sum_congr rfl fun m hm => by
    rcases k m hm with e | ⟨e, e'⟩
    · rw [e]
    · rw [e, e']; ring
  have x : siteEnergy M a E' = siteEnergy M a E := Finset.sum_congr rfl fun m hm => by
    rcases k m hm with e | ⟨e, e'⟩
    · rw [e]
    · rw [e]; ring
  have y : siteEnergy M b E' = siteEnergy M b E := Finset.sum_congr rfl fun m hm => by
    rcases k m hm with e | ⟨e, e'⟩
    · rw [e]
    · rw [e']; ring
  unfold QC.reportOf QC.coupling
  rw [j, x, y]

/-- The bounds need the energies of those orbitals only that have a part of one of the monomers'. -/
theorem reportOf_split_parts {M : Int} {a b E : Int → α} {lo hi : α} (ha : Normed M a) (hb : Normed M b)
    (hE : ∀ m, 1 ≤ m → m ≤ M → a m ≠ 0 ∨ b m ≠ 0 → lo ≤ E m ∧ E m ≤ hi) :
    SplitAtMost (hi - lo) (QC.reportOf M a b E) ∧ InRange lo hi (QC.reportOf M a b E) := by
  have hlh : lo ≤ hi := by
    by_contra hn
    have : ∑ m ∈ Icc 1 M, a m ^ 2 = 0 := Finset.sum_eq_zero fun m hm => by
      rw [mem_Icc] at hm
      by_contra hz
      have hz' : a m ≠ 0 := fun e => hz (by rw [e]; ring)
      obtain ⟨l1, l2⟩ := hE m hm.1 hm.2 (Or.inl hz')
      exact hn (l1.trans l2)
    unfold Normed at ha
    rw [this] at ha
    exact zero_ne_one ha
  let E' : Int → α := fun m => max lo (min hi (E m))
  have r : QC.reportOf M a b E' = QC.reportOf M a b E := reportOf_parts fun m h h' hp => by
    obtain ⟨l1, l2⟩ := hE m h h' hp
    show max lo (min hi (E m)) = E m
    rw [min_eq_right l2, max_eq_right l1]
  have hE' : ∀ m, 1 ≤ m → m ≤ M → lo ≤ E' m ∧ E' m ≤ hi := fun m _ _ => ⟨le_max_left _ _, max_le hlh (min_le_left _ _)⟩
  rw [← r]
  exact ⟨reportOf_split ha hb hE', reportOf_range ha hb hE'⟩

/-- C143 (any number of levels): the monomer orbitals are normalised in the dimer's orbitals, and the energies of those dimer orbitals that have a part of
one of them lie between `lo` and `hi`. Then four times the square of the coupling, and the square of the difference of the site energies over `1 - S²`, are
together at most `(hi - lo)²`; if the overlap is one in size both are zero. -/
theorem C143_levels {coef1 coef2 coefP S oe : Mat α} {cp : Bool} {n1 n2 M N K : Int} {u v : Int → α} {C s : Int → Int → α} {E : Int → α} {lo hi : α}
    (h1 : Values coef1 1 n1 (fun _ j => u j)) (h2 : Values coef2 1 n2 (fun _ j => v j)) (hP : Values coefP M N C)
    (hS : Values S K N s) (hE : VectorOf oe M E) (hc : Conforming cp n1 n2 K) (ha : Normed M (proj K N (zetaA cp n1 u) s C))
    (hb : Normed M (proj K N (zetaB cp n1 v) s C))
    (hr : ∀ m, 1 ≤ m → m ≤ M → proj K N (zetaA cp n1 u) s C m ≠ 0 ∨ proj K N (zetaB cp n1 v) s C m ≠ 0 → lo ≤ E m ∧ E m ≤ hi) :
    ∃ r, transferReport coef1 coef2 coefP S oe cp = .ok r ∧ calculateTransferIntegral coef1 coef2 coefP S oe cp = .ok r.jeff ∧
      (r.sab ^ 2 ≠ 1 → 4 * r.jeff ^ 2 + (r.ea - r.eb) ^ 2 / (1 - r.sab ^ 2) ≤ (hi - lo) ^ 2) ∧
      (r.sab ^ 2 = 1 → r.jeff = 0 ∧ r.ea = r.eb) ∧
      lo ≤ r.ea ∧ r.ea ≤ hi ∧ lo ≤ r.eb ∧ r.eb ≤ hi ∧ |r.jeff| ≤ (hi - lo) / 2 := by
  have e := report_eq h1 h2 hP hS hE hc
  obtain ⟨k, l⟩ := reportOf_split_parts (E := E) ha hb hr
  exact ⟨_, e, calculate_of_report e, k.split, k.same, l.ea.1, l.ea.2, l.eb.1, l.eb.2, l.jeff⟩

/-! ### after orthogonalisation -/

/-- The two states made orthonormal: sum of the energies, difference and coupling. -/
theorem loewdin_pair {s ea eb j : α} {X : Matrix (Fin 2) (Fin 2) α} (h : Loewdin s X) :
    (X * pairEnergy ea eb j * X) 0 0 + (X * pairEnergy ea eb j * X) 1 1 = (ea + eb - 2 * j * s) / (1 - s ^ 2) ∧
    ((X * pairEnergy ea eb j * X) 0 0 - (X * pairEnergy ea eb j * X) 1 1) ^ 2 = (ea - eb) ^ 2 / (1 - s ^ 2) := by
  obtain ⟨e1, e2, e3, e4⟩ := Loewdin.entries h
  have h0 : 1 - s ^ 2 ≠ 0 := fun h0 => by rw [h0, mul_zero] at e3; exact zero_ne_one e3
  simp only [pairEnergy, Matrix.mul_apply, Fin.sum_univ_two, Matrix.of_apply, Matrix.cons_val', Matrix.cons_val_zero, Matrix.cons_val_one,
    Matrix.cons_val_fin_one, e1, e2, Fin.isValue]
  generalize X 0 0 = p at *
  generalize X 0 1 = q at *
  constructor
  · rw [eq_div_iff h0]
    linear_combination (ea + eb) * e3 + 2 * j * e4
  · rw [eq_div_iff h0]
    have e5 : (p ^ 2 - q ^ 2) ^ 2 * (1 - s ^ 2) = 1 := by
      have : ((p ^ 2 - q ^ 2) ^ 2 * (1 - s ^ 2) - 1) * (1 - s ^ 2) = 0 := by
        linear_combination ((p ^ 2 + q ^ 2) * (1 - s ^ 2) + 1) * e3 - (2 * p * q * (1 - s ^ 2) - s) * e4
      rcases mul_eq_zero.1 this with k | k
      · exact sub_eq_zero.1 k
      · exact absurd k h0
    linear_combination (ea - eb) ^ 2 * e5

/-- C143 (Loewdin): in the two-level case the energies of the two monomer orbitals, made orthonormal by Loewdin's transformation, with the coupling between
them, have exactly the two levels of the dimer as eigenvalues: nothing is lost. -/
theorem C143_loewdin {coef1 coef2 coefP S oe : Mat α} {cp : Bool} {n1 n2 M N K p q : Int} {u v : Int → α} {C s : Int → Int → α} {E : Int → α}
    (h1 : Values coef1 1 n1 (fun _ j => u j)) (h2 : Values coef2 1 n2 (fun _ j => v j)) (hP : Values coefP M N C)
    (hS : Values S K N s) (hE : VectorOf oe M E) (hc : Conforming cp n1 n2 K) (ha : Normed M (proj K N (zetaA cp n1 u) s C))
    (hb : Normed M (proj K N (zetaB cp n1 v) s C)) (hp : 1 ≤ p) (hpq : p < q) (hq : q ≤ M) (oa : OnlyTwo M p q (proj K N (zetaA cp n1 u) s C))
    (ob : OnlyTwo M p q (proj K N (zetaB cp n1 v) s C)) :
    ∃ r, transferReport coef1 coef2 coefP S oe cp = .ok r ∧ calculateTransferIntegral coef1 coef2 coefP S oe cp = .ok r.jeff ∧
      ∀ X, Loewdin r.sab X → ∃ h11 h22, X * pairEnergy r.ea r.eb r.jab * X = !![h11, r.jeff; r.jeff, h22] ∧
        ∀ x, (h11 - x) * (h22 - x) - r.jeff ^ 2 = (E p - x) * (E q - x) := by
  have e := report_eq h1 h2 hP hS hE hc
  refine ⟨_, e, calculate_of_report e, fun X hX => ?_⟩
  have hs : overlapAB M (proj K N (zetaA cp n1 u) s C) (proj K N (zetaB cp n1 v) s C) ^ 2 ≠ 1 := by
    intro h0
    obtain ⟨-, -, e3, -⟩ := Loewdin.entries hX
    rw [show (1 : α) - (QC.reportOf M (proj K N (zetaA cp n1 u) s C) (proj K N (zetaB cp n1 v) s C) E).sab ^ 2 = 0 from sub_eq_zero.2 h0.symm, mul_zero] at e3
    exact zero_ne_one e3
  have k := (reportOf_two (E := E) two_ne_zero ha hb hp hpq hq oa ob).split hs
  have t := reportOf_sum (E := E) two_ne_zero ha hb hp hpq hq oa ob hs
  generalize hr : QC.reportOf M (proj K N (zetaA cp n1 u) s C) (proj K N (zetaB cp n1 v) s C) E = r at *
  have t' : (r.ea + r.eb - 2 * r.jab * r.sab) / (1 - r.sab ^ 2) = E p + E q := by rw [← hr]; exact t
  have hj : r.jeff = (r.jab - (r.ea + r.eb) * r.sab / 2) / (1 - r.sab ^ 2) := by rw [← hr]; rfl
  obtain ⟨l1, l2⟩ := C132_loewdin (ea := r.ea) (eb := r.eb) (j := r.jab) hX
  obtain ⟨l3, l4⟩ := loewdin_pair (ea := r.ea) (eb := r.eb) (j := r.jab) hX
  rw [t'] at l3
  rw [← l4] at k
  refine ⟨(X * pairEnergy r.ea r.eb r.jab * X) 0 0, (X * pairEnergy r.ea r.eb r.jab * X) 1 1, ?_, fun x => ?_⟩
  · ext i j
    fin_cases i <;> fin_cases j
    · rfl
    · exact l1.trans hj.symm
    · exact l2.trans hj.symm
    · rfl
  · generalize (X * pairEnergy r.ea r.eb r.jab * X) 0 0 = h at *
    generalize (X * pairEnergy r.ea r.eb r.jab * X) 1 1 = g at *
    have : 4 * ((h - x) * (g - x) - r.jeff ^ 2) = 4 * ((E p - x) * (E q - x)) := by
      linear_combination (h + g + E p + E q - 4 * x) * l3 - k
    exact mul_left_cancel₀ (by norm_num) this

/-! ### calc_J -/

variable {β : Type} [Num α] [DecidableEq β] {D : Type} [Args.Dbl D]

theorem IsReport.splits {cp : Bool} {coef1 coef2 coefP S : Mat α} {E : List α} {row1 row2 : Int} {r : Report α}
    (h : IsReport cp coef1 coef2 coefP S E row1 row2 r) : SplitMeaning cp coef1 coef2 coefP S E row1 row2 r := by
  intro N1 n1 N2 n2 M N K c1 c2 C s h1 h2 hP hS ha hb
  have hl := IsReport.lengthE h hP
  obtain ⟨-, rfl⟩ := IsReport.values h h1 h2 hP hS
  refine ⟨fun lo hi hE => ?_, fun p q hp hpq hq oa ob => ?_⟩
  · refine reportOf_split (E := fun m => E.getD (m - 1).toNat 0) ha hb fun m hm hm' => ?_
    have : (m - 1).toNat < E.length := by omega
    simp only [List.getD_eq_getElem?_getD, List.getElem?_eq_getElem this, Option.getD_some]
    exact hE _ (List.getElem_mem this)
  · exact reportOf_two (E := fun m => E.getD (m - 1).toNat 0) two_ne_zero ha hb hp hpq hq oa ob

/-- C143 (calc_J): the same for every run of calc_J that ends normally, of the tables the readers found (after the dimer's atoms were matched, if the
populations were in the files). -/
theorem C143_run (tos : α → β) (files : Str → Option Str) (fuel : Nat) (args : List Str) {par : Params.Params} {r : Report α}
    (h : calcJRun D tos files fuel args = .ok (par, r)) :
    ∃ (prP pr1 pr2 : PunData α) (lrP lr1 lr2 : LogData α),
      readPun files fuel par.punP = .ok prP ∧ readPun files fuel par.pun1 = .ok pr1 ∧ readPun files fuel par.pun2 = .ok pr2 ∧
      readLog files fuel par.logP = .ok lrP ∧ readLog files fuel par.log1 = .ok lr1 ∧ readLog files fuel par.log2 = .ok lr2 ∧
      ∃ S coefP coef1 coef2 eP e1 e2 homo1 homo2 row1 row2,
        lrP.getOverlapMatrix = .ok S ∧ prP.getCoefsMatrix par.spinP = .ok coefP ∧ pr1.getCoefsMatrix par.spin1 = .ok coef1 ∧
        pr2.getCoefsMatrix par.spin2 = .ok coef2 ∧ lrP.getOE par.spinP = .ok eP ∧ lr1.getOE par.spin1 = .ok e1 ∧
        lr2.getOE par.spin2 = .ok e2 ∧ lr1.getHOMOLevel par.spin1 = .ok homo1 ∧ lr2.getHOMOLevel par.spin2 = .ok homo2 ∧
        NamesOrbital (e1.length, homo1) par.orbType1 par.orbNum1 row1 ∧ NamesOrbital (e2.length, homo2) par.orbType2 par.orbNum2 row2 ∧
        (¬ HavePopulations lrP lr1 lr2 → SplitMeaning par.counterPoise coef1 coef2 coefP S eP row1 row2 r) ∧
        (HavePopulations lrP lr1 lr2 → ∃ (x1 x2 xP : Mat α) (T T' : TransferComplex α), ofVecVec lr1.getCoords = .ok x1 ∧
          ofVecVec lr2.getCoords = .ok x2 ∧ ofVecVec lrP.getCoords = .ok xP ∧ T.coef2 = coef2 ∧ T.coefP = coefP ∧ T.S = S ∧
          T.cp = par.counterPoise ∧ T.unscramble tos x1 x2 xP lrP.getBasisFuncCount lr2.getBasisFuncCount = .ok T' ∧
          SplitMeaning par.counterPoise coef1 T'.coef2 T'.coefP T'.S eP row1 row2 r) := by
  obtain ⟨q, h1, h2, h3, prP, pr1, pr2, lrP, lr1, lr2, g1, g2, g3, g4, g5, g6, S, coefP, coef1, coef2, eP, e1, e2, homo1, homo2, row1, row2,
    k1, k2, k3, k4, k5, k6, k7, k8, k9, k10, k11, k12, k13⟩ := C82_sound tos files fuel args h
  refine ⟨prP, pr1, pr2, lrP, lr1, lr2, g1, g2, g3, g4, g5, g6, S, coefP, coef1, coef2, eP, e1, e2, homo1, homo2, row1, row2,
    k1, k2, k3, k4, k5, k6, k7, k8, k9, k10, k11, ?_, ?_⟩
  · exact fun hn => IsReport.splits (k12 hn)
  · intro hp
    obtain ⟨x1, x2, xP, T, T', a1, a2, a3, a4, a5, a6, a7, a8, a9⟩ := k13 hp
    exact ⟨x1, x2, xP, T, T', a1, a2, a3, a4, a5, a6, a7, a8, IsReport.splits a9⟩

end
end Verif
