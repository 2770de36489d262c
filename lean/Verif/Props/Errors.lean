import Verif.Spec.Errors
import Verif.Props.MachineRun
import Verif.Props.PhysicsB
import Mathlib.Algebra.Order.BigOperators.Ring.Finset
import Mathlib.Tactic.LinearCombination
import Mathlib.Tactic.FieldSimp
import Mathlib.Tactic.Positivity
import Mathlib.Tactic.Linarith
import Mathlib.Data.Int.Interval
import Mathlib.Tactic.ByContra
/-
C144: how much errors in the numbers of the files change the numbers printed.
-/
namespace Verif
open Strings Readers QC Mat Finset

section
variable {α : Type} [Field α]

/-- The report is linear in the energies. -/
theorem reportOf_sub {M : Int} {a b E E' : Int → α} :
    (QC.reportOf M a b E').ea - (QC.reportOf M a b E).ea = (QC.reportOf M a b (fun m => E' m - E m)).ea ∧
    (QC.reportOf M a b E').eb - (QC.reportOf M a b E).eb = (QC.reportOf M a b (fun m => E' m - E m)).eb ∧
    (QC.reportOf M a b E').jeff - (QC.reportOf M a b E).jeff = (QC.reportOf M a b (fun m => E' m - E m)).jeff := by
  have s : ∀ g : Int → α, siteEnergy M g E' - siteEnergy M g E = siteEnergy M g (fun m => E' m - E m) := fun g => by
    unfold siteEnergy; rw [← Finset.sum_sub_distrib]; exact Finset.sum_congr rfl fun m _ => by ring
  have j : couplingJ M a b E' - couplingJ M a b E = couplingJ M a b (fun m => E' m - E m) := by
    unfold couplingJ; rw [← Finset.sum_sub_distrib]; exact Finset.sum_congr rfl fun m _ => by ring
  refine ⟨s a, s b, ?_⟩
  show QC.coupling M a b E' - QC.coupling M a b E = QC.coupling M a b (fun m => E' m - E m)
  unfold QC.coupling
  rw [← j, ← s a, ← s b]
  ring

/-- The zero of the energies. -/
theorem reportOf_shift {M : Int} {a b E : Int → α} (k : α) (ha : Normed M a) (hb : Normed M b) (two : (2 : α) ≠ 0) :
    QC.reportOf M a b (fun m => E m + k) = ⟨couplingJ M a b E + k * overlapAB M a b, siteEnergy M a E + k, siteEnergy M b E + k, overlapAB M a b, QC.coupling M a b E⟩ := by
  have s : ∀ g : Int → α, Normed M g → siteEnergy M g (fun m => E m + k) = siteEnergy M g E + k := fun g hg => by
    unfold Normed at hg
    unfold siteEnergy
    calc ∑ m ∈ Icc 1 M, g m ^ 2 * (E m + k) = ∑ m ∈ Icc 1 M, g m ^ 2 * E m + k * ∑ m ∈ Icc 1 M, g m ^ 2 := by
          rw [Finset.mul_sum, ← Finset.sum_add_distrib]; exact Finset.sum_congr rfl fun m _ => by ring
      _ = _ := by rw [hg, mul_one]
  have j : couplingJ M a b (fun m => E m + k) = couplingJ M a b E + k * overlapAB M a b := by
    unfold couplingJ overlapAB; rw [Finset.mul_sum, ← Finset.sum_add_distrib]; exact Finset.sum_congr rfl fun m _ => by ring
  unfold QC.reportOf QC.coupling
  rw [s a ha, s b hb, j]
  congr 1
  congr 1
  field_simp
  ring


/-- If the orbitals are the same up to the sign, the numerator of the coupling is zero, too. -/
theorem coupling_num [LinearOrder α] [IsStrictOrderedRing α] {M : Int} {a b E : Int → α} (ha : Normed M a) (hb : Normed M b) :
    couplingJ M a b E - (siteEnergy M a E + siteEnergy M b E) * overlapAB M a b / 2 = QC.coupling M a b E * (1 - overlapAB M a b ^ 2) := by
  by_cases hs : overlapAB M a b ^ 2 = 1
  · rw [hs, sub_self, mul_zero]
    obtain ⟨h1, h2, -, -⟩ := halves (E := E) ha hb
    have hor : overlapAB M a b = 1 ∨ overlapAB M a b = -1 := sq_eq_sq_iff_eq_or_eq_neg.1 (hs.trans (one_pow 2).symm)
    rcases hor with h | h
    · rw [h, sub_self, mul_zero, Finset.sum_eq_zero_iff_of_nonneg fun m _ => sq_nonneg _] at h2
      have e : ∀ m ∈ Icc 1 M, a m = b m := fun m hm => sub_eq_zero.1 (pow_eq_zero_iff two_ne_zero |>.1 (h2 m hm))
      have e1 : couplingJ M a b E = siteEnergy M a E := Finset.sum_congr rfl fun m hm => by rw [e m hm]; ring
      have e2 : siteEnergy M b E = siteEnergy M a E := Finset.sum_congr rfl fun m hm => by rw [e m hm]
      rw [e1, e2, h]; ring
    · rw [h, add_neg_cancel, mul_zero, Finset.sum_eq_zero_iff_of_nonneg fun m _ => sq_nonneg _] at h1
      have e : ∀ m ∈ Icc 1 M, a m = -b m := fun m hm => eq_neg_of_add_eq_zero_left (pow_eq_zero_iff two_ne_zero |>.1 (h1 m hm))
      have e1 : couplingJ M a b E = -siteEnergy M a E := by
        unfold couplingJ siteEnergy
        rw [← Finset.sum_neg_distrib]
        exact Finset.sum_congr rfl fun m hm => by rw [e m hm]; ring
      have e2 : siteEnergy M b E = siteEnergy M a E := Finset.sum_congr rfl fun m hm => by rw [e m hm]; ring
      rw [e1, e2, h]; ring
  · unfold QC.coupling
    rw [div_mul_cancel₀ _ fun h => hs (sub_eq_zero.1 h).symm]

end

section
variable {α : Type} [Field α] [LinearOrder α] [IsStrictOrderedRing α]

/-- Cauchy and Schwarz. -/
theorem cauchy {M : Int} {x y : Int → α} {p q : α} (hp : 0 ≤ p) (hq : 0 ≤ q) (hx : ∑ m ∈ Icc 1 M, x m ^ 2 ≤ p ^ 2) (hy : ∑ m ∈ Icc 1 M, y m ^ 2 ≤ q ^ 2) :
    |∑ m ∈ Icc 1 M, x m * y m| ≤ p * q := by
  refine abs_le_of_sq_le_sq ?_ (mul_nonneg hp hq)
  refine (Finset.sum_mul_sq_le_sq_mul_sq _ _ _).trans ?_
  rw [mul_pow]
  exact mul_le_mul hx hy (Finset.sum_nonneg fun m _ => sq_nonneg _) (sq_nonneg p)

/-- The same with energies of size at most `B` in between. -/
theorem cauchy_energy {M : Int} {x y E : Int → α} {p q B : α} (hp : 0 ≤ p) (hq : 0 ≤ q) (hB : 0 ≤ B) (hx : ∑ m ∈ Icc 1 M, x m ^ 2 ≤ p ^ 2)
    (hy : ∑ m ∈ Icc 1 M, y m ^ 2 ≤ q ^ 2) (hE : ∀ m, 1 ≤ m → m ≤ M → |E m| ≤ B) : |∑ m ∈ Icc 1 M, x m * (y m * E m)| ≤ p * (q * B) := by
  refine cauchy hp (mul_nonneg hq hB) hx ?_
  calc ∑ m ∈ Icc 1 M, (y m * E m) ^ 2 ≤ ∑ m ∈ Icc 1 M, y m ^ 2 * B ^ 2 := by
        refine Finset.sum_le_sum fun m hm => ?_
        rw [mem_Icc] at hm
        rw [mul_pow]
        exact mul_le_mul_of_nonneg_left (sq_le_sq' (abs_le.1 (hE m hm.1 hm.2)).1 (abs_le.1 (hE m hm.1 hm.2)).2) (sq_nonneg _)
    _ = (∑ m ∈ Icc 1 M, y m ^ 2) * B ^ 2 := by rw [Finset.sum_mul]
    _ ≤ q ^ 2 * B ^ 2 := mul_le_mul_of_nonneg_right hy (sq_nonneg B)
    _ = (q * B) ^ 2 := by ring

theorem mul_bound {x y p q : α} (hx : |x| ≤ p) (hy : |y| ≤ q) : |x * y| ≤ p * q := by
  rw [abs_mul]
  exact mul_le_mul hx hy (abs_nonneg y) ((abs_nonneg x).trans hx)

/-- Other monomer orbitals, energies around zero. -/
theorem reportOf_near {M : Int} {a b a' b' E : Int → α} {ε B : α} (ha : Normed M a) (hb : Normed M b) (ha' : Normed M a') (hb' : Normed M b')
    (he : 0 ≤ ε) (na : Near M ε a a') (nb : Near M ε b b') (hE : ∀ m, 1 ≤ m → m ≤ M → |E m| ≤ B) (hB : 0 ≤ B) :
    |overlapAB M a' b' - overlapAB M a b| ≤ 2 * ε ∧ |siteEnergy M a' E - siteEnergy M a E| ≤ 2 * ε * B ∧ |siteEnergy M b' E - siteEnergy M b E| ≤ 2 * ε * B ∧
    (overlapAB M a' b' ^ 2 ≠ 1 → |QC.coupling M a' b' E - QC.coupling M a b E| ≤ 10 * ε * B / (1 - overlapAB M a' b' ^ 2)) := by
  have u : ∀ {g : Int → α}, Normed M g → ∑ m ∈ Icc 1 M, g m ^ 2 ≤ 1 ^ 2 := fun hg => by unfold Normed at hg; rw [hg, one_pow]
  have ds : |overlapAB M a' b' - overlapAB M a b| ≤ 2 * ε := by
    have e : overlapAB M a' b' - overlapAB M a b = ∑ m ∈ Icc 1 M, (b' m - b m) * a' m + ∑ m ∈ Icc 1 M, (a' m - a m) * b m := by
      unfold overlapAB
      rw [← Finset.sum_sub_distrib, ← Finset.sum_add_distrib]
      exact Finset.sum_congr rfl fun m _ => by ring
    rw [e]
    refine (abs_add_le _ _).trans ?_
    linarith [cauchy he zero_le_one nb (u ha'), cauchy he zero_le_one na (u hb)]
  have dg : ∀ {g g' : Int → α}, Normed M g → Normed M g' → Near M ε g g' → |siteEnergy M g' E - siteEnergy M g E| ≤ 2 * ε * B := by
    intro g g' hg hg' ng
    have e : siteEnergy M g' E - siteEnergy M g E = ∑ m ∈ Icc 1 M, (g' m - g m) * (g' m * E m) + ∑ m ∈ Icc 1 M, (g' m - g m) * (g m * E m) := by
      unfold siteEnergy
      rw [← Finset.sum_sub_distrib, ← Finset.sum_add_distrib]
      exact Finset.sum_congr rfl fun m _ => by ring
    rw [e]
    refine (abs_add_le _ _).trans ?_
    linarith [cauchy_energy he zero_le_one hB ng (u hg') hE, cauchy_energy he zero_le_one hB ng (u hg) hE]
  have dj : |couplingJ M a' b' E - couplingJ M a b E| ≤ 2 * ε * B := by
    have e : couplingJ M a' b' E - couplingJ M a b E = ∑ m ∈ Icc 1 M, (b' m - b m) * (a' m * E m) + ∑ m ∈ Icc 1 M, (a' m - a m) * (b m * E m) := by
      unfold couplingJ
      rw [← Finset.sum_sub_distrib, ← Finset.sum_add_distrib]
      exact Finset.sum_congr rfl fun m _ => by ring
    rw [e]
    refine (abs_add_le _ _).trans ?_
    linarith [cauchy_energy he zero_le_one hB nb (u ha') hE, cauchy_energy he zero_le_one hB na (u hb) hE]
  have da := dg ha ha' na
  have db := dg hb hb' nb
  refine ⟨ds, da, db, fun hs => ?_⟩
  obtain ⟨s1, s2⟩ := overlap_le ha hb
  obtain ⟨s1', s2'⟩ := overlap_le ha' hb'
  have rng := reportOf_range (E := E) (lo := -B) (hi := B) ha hb fun m h h' => abs_le.1 (hE m h h')
  have rj : |QC.coupling M a b E| ≤ B := rng.jeff.trans_eq (by ring)
  have ra : |siteEnergy M a E| ≤ B := abs_le.2 rng.ea
  have rb : |siteEnergy M b E| ≤ B := abs_le.2 rng.eb
  have n1 := coupling_num (E := E) ha hb
  have n2 := coupling_num (E := E) ha' hb'
  have hS' : |overlapAB M a' b'| ≤ 1 := abs_le.2 ⟨s1', s2'⟩
  have hS : |overlapAB M a b| ≤ 1 := abs_le.2 ⟨s1, s2⟩
  have pos : 0 < 1 - overlapAB M a' b' ^ 2 := by
    have : overlapAB M a' b' ^ 2 ≤ 1 := by nlinarith
    exact sub_pos.2 (lt_of_le_of_ne this hs)
  rw [le_div_iff₀ pos]
  generalize QC.coupling M a b E = J at *
  generalize QC.coupling M a' b' E = J' at *
  generalize overlapAB M a b = S at *
  generalize overlapAB M a' b' = S' at *
  generalize siteEnergy M a E = x at *
  generalize siteEnergy M b E = y at *
  generalize siteEnergy M a' E = x' at *
  generalize siteEnergy M b' E = y' at *
  generalize couplingJ M a b E = j at *
  generalize couplingJ M a' b' E = j' at *
  have e : (J' - J) * (1 - S' ^ 2) = (j' - j) - (x' - x) * S' / 2 - (y' - y) * S' / 2 - x * (S' - S) / 2 - y * (S' - S) / 2 + J * ((S' - S) * (S' + S)) := by
    linear_combination n1 - n2
  have k : |J' - J| * (1 - S' ^ 2) = |(J' - J) * (1 - S' ^ 2)| := by rw [abs_mul, abs_of_pos pos]
  rw [k, e]
  have b1 := abs_le.1 (mul_bound da hS')
  have b2 := abs_le.1 (mul_bound db hS')
  have b3 := abs_le.1 (mul_bound ra ds)
  have b4 := abs_le.1 (mul_bound rb ds)
  have b5 := abs_le.1 (mul_bound rj (mul_bound ds ((abs_add_le S' S).trans (add_le_add hS' hS))))
  have b6 := abs_le.1 dj
  rw [abs_le]
  constructor
  · linarith [b1.2, b2.2, b3.2, b4.2, b5.1, b6.1]
  · linarith [b1.1, b2.1, b3.1, b4.1, b5.2, b6.2]

/-- Other energies. -/
theorem reportOf_energies {M : Int} {a b E E' : Int → α} {δ : α} (ha : Normed M a) (hb : Normed M b) (hd : ∀ m, 1 ≤ m → m ≤ M → |E' m - E m| ≤ δ) :
    |(QC.reportOf M a b E').ea - (QC.reportOf M a b E).ea| ≤ δ ∧ |(QC.reportOf M a b E').eb - (QC.reportOf M a b E).eb| ≤ δ ∧
    |(QC.reportOf M a b E').jeff - (QC.reportOf M a b E).jeff| ≤ δ := by
  obtain ⟨e1, e2, e3⟩ := reportOf_sub (M := M) (a := a) (b := b) (E := E) (E' := E')
  have k := reportOf_range (E := fun m => E' m - E m) (lo := -δ) (hi := δ) ha hb fun m h h' => abs_le.1 (hd m h h')
  rw [e1, e2, e3]
  exact ⟨abs_le.2 k.ea, abs_le.2 k.eb, k.jeff.trans_eq (by ring)⟩

/-- Both. -/
theorem reportOf_close {M : Int} {a b a' b' E E' : Int → α} {ε δ lo hi : α} (ha : Normed M a) (hb : Normed M b) (ha' : Normed M a') (hb' : Normed M b')
    (he : 0 ≤ ε) (na : Near M ε a a') (nb : Near M ε b b') (hE : ∀ m, 1 ≤ m → m ≤ M → lo ≤ E m ∧ E m ≤ hi)
    (hd : ∀ m, 1 ≤ m → m ≤ M → |E' m - E m| ≤ δ) : CloseReports ε δ lo hi (QC.reportOf M a b E) (QC.reportOf M a' b' E') := by
  obtain ⟨d1, d2, d3⟩ := reportOf_energies (E := E) (E' := E') ha' hb' hd
  have hlh : lo ≤ hi := by
    have := (reportOf_range (E := E) ha hb hE).ea
    exact this.1.trans this.2
  have sh := reportOf_shift (E := E) (-((lo + hi) / 2)) ha hb two_ne_zero
  have sh' := reportOf_shift (E := E) (-((lo + hi) / 2)) ha' hb' two_ne_zero
  obtain ⟨k1, k2, k3, k4⟩ := reportOf_near (E := fun m => E m + -((lo + hi) / 2)) (B := (hi - lo) / 2) ha hb ha' hb' he na nb
    (fun m h h' => by
      obtain ⟨h1, h2⟩ := hE m h h'
      rw [abs_le]
      constructor <;> linarith) (by linarith)
  have t1 : siteEnergy M a (fun m => E m + -((lo + hi) / 2)) = siteEnergy M a E + -((lo + hi) / 2) := congrArg Report.ea sh
  have t2 : siteEnergy M b (fun m => E m + -((lo + hi) / 2)) = siteEnergy M b E + -((lo + hi) / 2) := congrArg Report.eb sh
  have t3 : QC.coupling M a b (fun m => E m + -((lo + hi) / 2)) = QC.coupling M a b E := congrArg Report.jeff sh
  have t1' : siteEnergy M a' (fun m => E m + -((lo + hi) / 2)) = siteEnergy M a' E + -((lo + hi) / 2) := congrArg Report.ea sh'
  have t2' : siteEnergy M b' (fun m => E m + -((lo + hi) / 2)) = siteEnergy M b' E + -((lo + hi) / 2) := congrArg Report.eb sh'
  have t3' : QC.coupling M a' b' (fun m => E m + -((lo + hi) / 2)) = QC.coupling M a' b' E := congrArg Report.jeff sh'
  rw [t1, t1', add_sub_add_right_eq_sub] at k2
  rw [t2, t2', add_sub_add_right_eq_sub] at k3
  rw [t3, t3'] at k4
  refine ⟨k1, ?_, ?_, fun hs => ?_⟩
  · have : |siteEnergy M a' E' - siteEnergy M a E| ≤ δ + 2 * ε * ((hi - lo) / 2) := by
      rw [show siteEnergy M a' E' - siteEnergy M a E = (siteEnergy M a' E' - siteEnergy M a' E) + (siteEnergy M a' E - siteEnergy M a E) by ring]
      exact (abs_add_le _ _).trans (add_le_add d1 k2)
    exact this.trans_eq (by ring)
  · have : |siteEnergy M b' E' - siteEnergy M b E| ≤ δ + 2 * ε * ((hi - lo) / 2) := by
      rw [show siteEnergy M b' E' - siteEnergy M b E = (siteEnergy M b' E' - siteEnergy M b' E) + (siteEnergy M b' E - siteEnergy M b E) by ring]
      exact (abs_add_le _ _).trans (add_le_add d2 k3)
    exact this.trans_eq (by ring)
  · have : |QC.coupling M a' b' E' - QC.coupling M a b E| ≤ δ + 10 * ε * ((hi - lo) / 2) / (1 - overlapAB M a' b' ^ 2) := by
      rw [show QC.coupling M a' b' E' - QC.coupling M a b E = (QC.coupling M a' b' E' - QC.coupling M a' b' E) + (QC.coupling M a' b' E - QC.coupling M a b E) by ring]
      exact (abs_add_le _ _).trans (add_le_add d3 (k4 hs))
    exact this.trans_eq (by show _ = δ + 5 * ε * (hi - lo) / (1 - overlapAB M a' b' ^ 2); ring)

/-- A vector near a normalised one has a length of at most `1 + ε`. -/
theorem near_length {M : Int} {g g' : Int → α} {ε : α} (hg : Normed M g) (he : 0 ≤ ε) (hn : Near M ε g g') : ∑ m ∈ Icc 1 M, g' m ^ 2 ≤ (1 + ε) ^ 2 := by
  have h1 : ∑ m ∈ Icc 1 M, g m ^ 2 ≤ 1 ^ 2 := by unfold Normed at hg; rw [hg, one_pow]
  have c := abs_le.1 (cauchy he zero_le_one hn h1)
  have e : ∑ m ∈ Icc 1 M, g' m ^ 2 = ∑ m ∈ Icc 1 M, (g' m - g m) ^ 2 + 2 * ∑ m ∈ Icc 1 M, (g' m - g m) * g m + ∑ m ∈ Icc 1 M, g m ^ 2 := by
    rw [Finset.mul_sum, ← Finset.sum_add_distrib, ← Finset.sum_add_distrib]
    exact Finset.sum_congr rfl fun m _ => by ring
  unfold Near at hn
  rw [e]
  nlinarith [c.2]

/-- The report of orbitals and energies that are near to others. -/
theorem reportOf_rounded {M : Int} {a b a' b' E E' : Int → α} {ε δ B : α} (ha : Normed M a) (hb : Normed M b)
    (he : 0 ≤ ε) (na : Near M ε a a') (nb : Near M ε b b') (hE : ∀ m, 1 ≤ m → m ≤ M → |E m| ≤ B)
    (hd : ∀ m, 1 ≤ m → m ≤ M → |E' m - E m| ≤ δ) : Approximates (ε * (2 + ε)) δ B M a b E (QC.reportOf M a' b' E') := by
  have u : ∀ {g : Int → α}, Normed M g → ∑ m ∈ Icc 1 M, g m ^ 2 ≤ 1 ^ 2 := fun hg => by unfold Normed at hg; rw [hg, one_pow]
  have rng := reportOf_range (E := E) (lo := -B) (hi := B) ha hb fun m h h' => abs_le.1 (hE m h h')
  have rj : |QC.coupling M a b E| ≤ B := rng.jeff.trans_eq (by ring)
  have ra : |siteEnergy M a E| ≤ B := abs_le.2 rng.ea
  have rb : |siteEnergy M b E| ≤ B := abs_le.2 rng.eb
  have hB : 0 ≤ B := (abs_nonneg _).trans ra
  have hδ : 0 ≤ δ := by
    by_contra hn
    have : ∑ m ∈ Icc 1 M, a m ^ 2 = 0 := Finset.sum_eq_zero fun m hm => by
      rw [mem_Icc] at hm
      exact absurd ((abs_nonneg _).trans (hd m hm.1 hm.2)) hn
    unfold Normed at ha
    rw [this] at ha
    exact zero_ne_one ha
  have w0 : 0 ≤ 1 + ε := by linarith
  have wa := near_length ha he na
  have wb := near_length hb he nb
  have ds : |overlapAB M a' b' - overlapAB M a b| ≤ ε * (2 + ε) := by
    have e : overlapAB M a' b' - overlapAB M a b = ∑ m ∈ Icc 1 M, (b' m - b m) * a' m + ∑ m ∈ Icc 1 M, (a' m - a m) * b m := by
      unfold overlapAB
      rw [← Finset.sum_sub_distrib, ← Finset.sum_add_distrib]
      exact Finset.sum_congr rfl fun m _ => by ring
    rw [e]
    refine (abs_add_le _ _).trans ?_
    linarith [cauchy he w0 nb wa, cauchy he zero_le_one na (u hb)]
  have dg : ∀ {g g' : Int → α}, Normed M g → Near M ε g g' → |siteEnergy M g' E' - siteEnergy M g E| ≤ ε * (2 + ε) * B + δ * (1 + ε * (2 + ε)) := by
    intro g g' hg ng
    have wg := near_length hg he ng
    have e : siteEnergy M g' E' - siteEnergy M g E = (∑ m ∈ Icc 1 M, (g' m - g m) * (g' m * E m) + ∑ m ∈ Icc 1 M, (g' m - g m) * (g m * E m)) +
        ∑ m ∈ Icc 1 M, g' m * (g' m * (E' m - E m)) := by
      unfold siteEnergy
      rw [← Finset.sum_sub_distrib, ← Finset.sum_add_distrib, ← Finset.sum_add_distrib]
      exact Finset.sum_congr rfl fun m _ => by ring
    rw [e]
    refine (abs_add_le _ _).trans ?_
    refine (add_le_add (abs_add_le _ _) le_rfl).trans ?_
    linarith [cauchy_energy he w0 hB ng wg hE, cauchy_energy he zero_le_one hB ng (u hg) hE, cauchy_energy w0 w0 hδ wg wg hd]
  have dj : |couplingJ M a' b' E' - couplingJ M a b E| ≤ ε * (2 + ε) * B + δ * (1 + ε * (2 + ε)) := by
    have e : couplingJ M a' b' E' - couplingJ M a b E = (∑ m ∈ Icc 1 M, (b' m - b m) * (a' m * E m) + ∑ m ∈ Icc 1 M, (a' m - a m) * (b m * E m)) +
        ∑ m ∈ Icc 1 M, b' m * (a' m * (E' m - E m)) := by
      unfold couplingJ
      rw [← Finset.sum_sub_distrib, ← Finset.sum_add_distrib, ← Finset.sum_add_distrib]
      exact Finset.sum_congr rfl fun m _ => by ring
    rw [e]
    refine (abs_add_le _ _).trans ?_
    refine (add_le_add (abs_add_le _ _) le_rfl).trans ?_
    linarith [cauchy_energy he w0 hB nb wa hE, cauchy_energy he zero_le_one hB na (u hb) hE, cauchy_energy w0 w0 hδ wb wa hd]
  have da := dg ha na
  have db := dg hb nb
  refine ⟨ds, da, db, dj, fun hs => ?_⟩
  have hs' : overlapAB M a' b' ^ 2 < 1 := hs
  show |QC.coupling M a' b' E' - QC.coupling M a b E| ≤ _ / (1 - overlapAB M a' b' ^ 2)
  obtain ⟨s1, s2⟩ := overlap_le ha hb
  have n1 := coupling_num (E := E) ha hb
  have pos : 0 < 1 - overlapAB M a' b' ^ 2 := sub_pos.2 hs'
  have n2 : couplingJ M a' b' E' - (siteEnergy M a' E' + siteEnergy M b' E') * overlapAB M a' b' / 2 = QC.coupling M a' b' E' * (1 - overlapAB M a' b' ^ 2) := by
    unfold QC.coupling
    rw [div_mul_cancel₀ _ pos.ne']
  have hS : |overlapAB M a b| ≤ 1 := abs_le.2 ⟨s1, s2⟩
  have hS' : |overlapAB M a' b'| ≤ 1 + ε * (2 + ε) := by
    have : |overlapAB M a' b'| = |(overlapAB M a' b' - overlapAB M a b) + overlapAB M a b| := by rw [sub_add_cancel]
    rw [this]
    linarith [abs_add_le (overlapAB M a' b' - overlapAB M a b) (overlapAB M a b)]
  rw [le_div_iff₀ pos]
  generalize QC.coupling M a b E = J at *
  generalize QC.coupling M a' b' E' = J' at *
  generalize overlapAB M a b = S at *
  generalize overlapAB M a' b' = S' at *
  generalize siteEnergy M a E = x at *
  generalize siteEnergy M b E = y at *
  generalize siteEnergy M a' E' = x' at *
  generalize siteEnergy M b' E' = y' at *
  generalize couplingJ M a b E = j at *
  generalize couplingJ M a' b' E' = j' at *
  generalize ε * (2 + ε) = η at *
  have e : (J' - J) * (1 - S' ^ 2) = (j' - j) - (x' - x) * S' / 2 - (y' - y) * S' / 2 - x * (S' - S) / 2 - y * (S' - S) / 2 + J * ((S' - S) * (S' + S)) := by
    linear_combination n1 - n2
  have k : |J' - J| * (1 - S' ^ 2) = |(J' - J) * (1 - S' ^ 2)| := by rw [abs_mul, abs_of_pos pos]
  rw [k, e]
  have b1 := abs_le.1 (mul_bound da hS')
  have b2 := abs_le.1 (mul_bound db hS')
  have b3 := abs_le.1 (mul_bound ra ds)
  have b4 := abs_le.1 (mul_bound rb ds)
  have b5 := abs_le.1 (mul_bound rj (mul_bound ds ((abs_add_le S' S).trans (add_le_add hS' hS))))
  have b6 := abs_le.1 dj
  rw [abs_le]
  constructor
  · linarith [b1.2, b2.2, b3.2, b4.2, b5.1, b6.1]
  · linarith [b1.1, b2.1, b3.1, b4.1, b5.2, b6.2]

/-- C144 (rounded tables): the tables need not be normalised. Let `a`, `b` (normalised) and `E` (of size at most `B`) be the projections and energies that are meant,
and let the tables give projections and energies within `ε` and `δ` of them, since their numbers were rounded when they were printed, say. Then the numbers of
`calculate_transfer_integral` are those that are meant, up to the bounds in `Approximates`. -/
theorem C144_rounded {coef1 coef2 coefP S oe : Mat α} {cp : Bool} {n1 n2 M N K : Int} {u v : Int → α} {C s : Int → Int → α} {E E' a b : Int → α} {ε δ B : α}
    (h1 : Values coef1 1 n1 (fun _ j => u j)) (h2 : Values coef2 1 n2 (fun _ j => v j)) (hP : Values coefP M N C)
    (hS : Values S K N s) (hE : VectorOf oe M E') (hc : Conforming cp n1 n2 K) (ha : Normed M a) (hb : Normed M b) (he : 0 ≤ ε)
    (na : Near M ε a (proj K N (zetaA cp n1 u) s C)) (nb : Near M ε b (proj K N (zetaB cp n1 v) s C))
    (hB : ∀ m, 1 ≤ m → m ≤ M → |E m| ≤ B) (hd : ∀ m, 1 ≤ m → m ≤ M → |E' m - E m| ≤ δ) :
    ∃ r, transferReport coef1 coef2 coefP S oe cp = .ok r ∧ calculateTransferIntegral coef1 coef2 coefP S oe cp = .ok r.jeff ∧
      Approximates (ε * (2 + ε)) δ B M a b E r := by
  have e := report_eq h1 h2 hP hS hE hc
  exact ⟨_, e, calculate_of_report e, reportOf_rounded ha hb he na nb hB hd⟩

/-- Coefficients that differ by at most `κ` each, in functions whose overlaps are at most one: the orbitals differ by at most `K κ` in length. -/
theorem near_coefs {K : Int} {s C : Int → Int → α} {z z' : Int → α} {κ : α} (ho : Orthonormal K s C) (hs : ∀ p q, 1 ≤ p → p ≤ K → 1 ≤ q → q ≤ K → |s p q| ≤ 1)
    (hz : ∀ p, 1 ≤ p → p ≤ K → |z' p - z p| ≤ κ) : Near K ((K : α) * κ) (proj K K z s C) (proj K K z' s C) := by
  by_cases hK : K < 1
  · unfold Near
    rw [Finset.Icc_eq_empty (by omega), Finset.sum_empty]
    exact sq_nonneg _
  have hκ : 0 ≤ κ := (abs_nonneg _).trans (hz 1 le_rfl (by omega))
  have lin : ∀ m, proj K K z' s C m - proj K K z s C m = proj K K (fun p => z' p - z p) s C m := fun m => by
    unfold proj
    rw [← Finset.sum_sub_distrib]
    refine Finset.sum_congr rfl fun p _ => ?_
    rw [← Finset.sum_sub_distrib]
    exact Finset.sum_congr rfl fun q _ => by ring
  have card : ∑ _p ∈ Icc 1 K, (1 : α) = (K : α) := by
    rw [Finset.sum_const, Int.card_Icc, nsmul_eq_mul, mul_one, show K + 1 - 1 = K by ring]
    have : ((K.toNat : Int) : α) = (K : α) := by rw [Int.toNat_of_nonneg (by omega)]
    rw [← this, Int.cast_natCast]
  unfold Near
  calc ∑ m ∈ Icc 1 K, (proj K K z' s C m - proj K K z s C m) ^ 2 = sandwich K (fun p => z' p - z p) s (fun p => z' p - z p) := by
        rw [← overlap_sum ho]
        exact Finset.sum_congr rfl fun m _ => by rw [lin]; ring
    _ ≤ ∑ p ∈ Icc 1 K, ∑ q ∈ Icc 1 K, κ * κ * (1 * 1) := by
        refine Finset.sum_le_sum fun p hp => Finset.sum_le_sum fun q hq => ?_
        rw [mem_Icc] at hp hq
        refine (abs_le.1 (mul_bound (mul_bound (hz p hp.1 hp.2) (hs p q hp.1 hp.2 hq.1 hq.2)) (hz q hq.1 hq.2))).2.trans_eq (by ring)
    _ = ((K : α) * κ) ^ 2 := by
        rw [← card]
        simp only [Finset.sum_const, nsmul_eq_mul]
        ring

/-- C144 (the zero of the energies): a constant added to all the dimer's energies is added to the site energies and leaves the coupling as it is, for monomer
orbitals that are normalised in the dimer's. -/
theorem C144_zero {coef1 coef2 coefP S oe oe' : Mat α} {cp : Bool} {n1 n2 M N K : Int} {u v : Int → α} {C s : Int → Int → α} {E : Int → α} (k : α)
    (h1 : Values coef1 1 n1 (fun _ j => u j)) (h2 : Values coef2 1 n2 (fun _ j => v j)) (hP : Values coefP M N C)
    (hS : Values S K N s) (hE : VectorOf oe M E) (hE' : VectorOf oe' M (fun m => E m + k)) (hc : Conforming cp n1 n2 K)
    (ha : Normed M (proj K N (zetaA cp n1 u) s C)) (hb : Normed M (proj K N (zetaB cp n1 v) s C)) :
    ∃ r, transferReport coef1 coef2 coefP S oe cp = .ok r ∧
      transferReport coef1 coef2 coefP S oe' cp = .ok { r with jab := r.jab + k * r.sab, ea := r.ea + k, eb := r.eb + k } ∧
      calculateTransferIntegral coef1 coef2 coefP S oe' cp = calculateTransferIntegral coef1 coef2 coefP S oe cp := by
  have e := report_eq h1 h2 hP hS hE hc
  have e' := report_eq h1 h2 hP hS hE' hc
  rw [reportOf_shift k ha hb two_ne_zero] at e'
  exact ⟨_, e, e', by rw [calculate_of_report e, calculate_of_report e']; rfl⟩

/-- C144 (small errors): two jobs whose monomer orbitals, normalised in the dimer's, differ by at most `ε` in length (for whichever reason: other coefficients,
other overlaps, other dimer orbitals) and whose dimer energies, between `lo` and `hi`, differ by at most `δ`, have overlaps that differ by at most `2 ε`, site
energies that differ by at most `δ + ε (hi - lo)`, and couplings that differ by at most `δ + 5 ε (hi - lo) / (1 - S²)`. -/
theorem C144_close {coef1 coef2 coefP S oe coef1' coef2' coefP' S' oe' : Mat α} {cp cp' : Bool} {n1 n2 M N K n1' n2' N' K' : Int} {u v u' v' : Int → α}
    {C s C' s' : Int → Int → α} {E E' : Int → α} {ε δ lo hi : α}
    (h1 : Values coef1 1 n1 (fun _ j => u j)) (h2 : Values coef2 1 n2 (fun _ j => v j)) (hP : Values coefP M N C)
    (hS : Values S K N s) (hE : VectorOf oe M E) (hc : Conforming cp n1 n2 K)
    (h1' : Values coef1' 1 n1' (fun _ j => u' j)) (h2' : Values coef2' 1 n2' (fun _ j => v' j)) (hP' : Values coefP' M N' C')
    (hS' : Values S' K' N' s') (hE' : VectorOf oe' M E') (hc' : Conforming cp' n1' n2' K')
    (ha : Normed M (proj K N (zetaA cp n1 u) s C)) (hb : Normed M (proj K N (zetaB cp n1 v) s C))
    (ha' : Normed M (proj K' N' (zetaA cp' n1' u') s' C')) (hb' : Normed M (proj K' N' (zetaB cp' n1' v') s' C')) (he : 0 ≤ ε)
    (na : Near M ε (proj K N (zetaA cp n1 u) s C) (proj K' N' (zetaA cp' n1' u') s' C'))
    (nb : Near M ε (proj K N (zetaB cp n1 v) s C) (proj K' N' (zetaB cp' n1' v') s' C'))
    (hr : ∀ m, 1 ≤ m → m ≤ M → lo ≤ E m ∧ E m ≤ hi) (hd : ∀ m, 1 ≤ m → m ≤ M → |E' m - E m| ≤ δ) :
    ∃ r r', transferReport coef1 coef2 coefP S oe cp = .ok r ∧ transferReport coef1' coef2' coefP' S' oe' cp' = .ok r' ∧
      calculateTransferIntegral coef1 coef2 coefP S oe cp = .ok r.jeff ∧ calculateTransferIntegral coef1' coef2' coefP' S' oe' cp' = .ok r'.jeff ∧
      |r'.sab - r.sab| ≤ 2 * ε ∧ |r'.ea - r.ea| ≤ δ + ε * (hi - lo) ∧ |r'.eb - r.eb| ≤ δ + ε * (hi - lo) ∧
      (r'.sab ^ 2 ≠ 1 → |r'.jeff - r.jeff| ≤ δ + 5 * ε * (hi - lo) / (1 - r'.sab ^ 2)) := by
  have e := report_eq h1 h2 hP hS hE hc
  have e' := report_eq h1' h2' hP' hS' hE' hc'
  obtain ⟨k1, k2, k3, k4⟩ := reportOf_close ha hb ha' hb' he na nb hr hd
  exact ⟨_, _, e, e', calculate_of_report e, calculate_of_report e', k1, k2, k3, k4⟩

/-- C144 (rounded coefficients): the dimer's orbitals are a full orthonormal set, the monomer orbitals that are meant are normalised and have coefficients
`u₀`, `v₀`, and each coefficient in the tables is within `κ` of them (and each energy within `δ`): the numbers approximate those that are meant, with
`ε = K κ`, for `K` functions whose overlaps are at most one. -/
theorem C144_coefs {coef1 coef2 coefP S oe : Mat α} {cp : Bool} {n1 n2 K : Int} {u v u₀ v₀ : Int → α} {C s : Int → Int → α} {E E' : Int → α} {κ δ B : α}
    (h1 : Values coef1 1 n1 (fun _ j => u j)) (h2 : Values coef2 1 n2 (fun _ j => v j)) (hP : Values coefP K K C)
    (hS : Values S K K s) (hE : VectorOf oe K E') (hc : Conforming cp n1 n2 K) (ho : Orthonormal K s C)
    (hs : ∀ p q, 1 ≤ p → p ≤ K → 1 ≤ q → q ≤ K → |s p q| ≤ 1)
    (ha : sandwich K (zetaA cp n1 u₀) s (zetaA cp n1 u₀) = 1) (hb : sandwich K (zetaB cp n1 v₀) s (zetaB cp n1 v₀) = 1) (hκ : 0 ≤ κ)
    (hu : ∀ j, 1 ≤ j → j ≤ n1 → |u j - u₀ j| ≤ κ) (hv : ∀ j, 1 ≤ j → j ≤ n2 → |v j - v₀ j| ≤ κ)
    (hB : ∀ m, 1 ≤ m → m ≤ K → |E m| ≤ B) (hd : ∀ m, 1 ≤ m → m ≤ K → |E' m - E m| ≤ δ) :
    ∃ r, transferReport coef1 coef2 coefP S oe cp = .ok r ∧ calculateTransferIntegral coef1 coef2 coefP S oe cp = .ok r.jeff ∧
      Approximates (K * κ * (2 + K * κ)) δ B K (proj K K (zetaA cp n1 u₀) s C) (proj K K (zetaB cp n1 v₀) s C) E r := by
  have hK : (0 : α) ≤ (K : α) := by
    have := hS.wf.rows1
    rw [hS.rows] at this
    exact_mod_cast (show (0 : Int) ≤ K by omega)
  have nrm : ∀ z, sandwich K z s z = 1 → Normed K (proj K K z s C) := fun z hz => by
    unfold Normed
    rw [← hz, ← overlap_sum ho]
    exact Finset.sum_congr rfl fun m _ => by ring
  refine C144_rounded h1 h2 hP hS hE hc (nrm _ ha) (nrm _ hb) (mul_nonneg hK hκ) (near_coefs ho hs ?_) (near_coefs ho hs ?_) hB hd
  · intro p hp hp'
    unfold Conforming at hc
    unfold zetaA
    cases cp
    · simp only [Bool.false_eq_true, if_false] at hc ⊢
      by_cases c : p ≤ n1
      · rw [if_pos c, if_pos c]; exact hu p hp c
      · rw [if_neg c, if_neg c, sub_self, abs_zero]; exact hκ
    · simp only [if_true] at hc ⊢
      exact hu p hp (by omega)
  · intro p hp hp'
    unfold Conforming at hc
    unfold zetaB
    cases cp
    · simp only [Bool.false_eq_true, if_false] at hc ⊢
      by_cases c : p ≤ n1
      · rw [if_pos c, if_pos c, sub_self, abs_zero]; exact hκ
      · rw [if_neg c, if_neg c]; exact hv (p - n1) (by omega) (by omega)
    · simp only [if_true] at hc ⊢
      exact hv p hp (by omega)

/-- C144 (errors of the energies only): then site energies and coupling change by no more than the energies. -/
theorem C144_energies {coef1 coef2 coefP S oe oe' : Mat α} {cp : Bool} {n1 n2 M N K : Int} {u v : Int → α} {C s : Int → Int → α} {E E' : Int → α} {δ : α}
    (h1 : Values coef1 1 n1 (fun _ j => u j)) (h2 : Values coef2 1 n2 (fun _ j => v j)) (hP : Values coefP M N C)
    (hS : Values S K N s) (hE : VectorOf oe M E) (hE' : VectorOf oe' M E') (hc : Conforming cp n1 n2 K)
    (ha : Normed M (proj K N (zetaA cp n1 u) s C)) (hb : Normed M (proj K N (zetaB cp n1 v) s C)) (hd : ∀ m, 1 ≤ m → m ≤ M → |E' m - E m| ≤ δ) :
    ∃ r r', transferReport coef1 coef2 coefP S oe cp = .ok r ∧ transferReport coef1 coef2 coefP S oe' cp = .ok r' ∧
      calculateTransferIntegral coef1 coef2 coefP S oe cp = .ok r.jeff ∧ calculateTransferIntegral coef1 coef2 coefP S oe' cp = .ok r'.jeff ∧
      r'.sab = r.sab ∧ |r'.ea - r.ea| ≤ δ ∧ |r'.eb - r.eb| ≤ δ ∧ |r'.jeff - r.jeff| ≤ δ := by
  have e := report_eq h1 h2 hP hS hE hc
  have e' := report_eq h1 h2 hP hS hE' hc
  obtain ⟨k1, k2, k3⟩ := reportOf_energies (E := E) (E' := E') ha hb hd
  exact ⟨_, _, e, e', calculate_of_report e, calculate_of_report e', rfl, k1, k2, k3⟩

/-! ### calc_J -/

variable {β : Type} [Num α] [DecidableEq β] {D : Type} [Args.Dbl D]

omit [LinearOrder α] [IsStrictOrderedRing α] in
/-- Every run that ends normally has such tables, and prints their report. -/
theorem tablesOf_run {tos : α → β} {files : Str → Option Str} {fuel : Nat} {args : List Str} {par : Params.Params} {r : Report α}
    (h : calcJRun D tos files fuel args = .ok (par, r)) : ∃ coef1 coef2 coefP S eP row1 row2, TablesOf tos files fuel par coef1 coef2 coefP S eP row1 row2 ∧
      IsReport par.counterPoise coef1 coef2 coefP S eP row1 row2 r := by
  obtain ⟨q, h1, h2, h3, prP, pr1, pr2, lrP, lr1, lr2, g1, g2, g3, g4, g5, g6, S, coefP, coef1, coef2, eP, e1, e2, homo1, homo2, row1, row2,
    k1, k2, k3, k4, k5, k6, k7, k8, k9, k10, k11, k12, k13⟩ := C82_sound tos files fuel args h
  by_cases hp : HavePopulations lrP lr1 lr2
  · obtain ⟨x1, x2, xP, T, T', a1, a2, a3, a4, a5, a6, a7, a8, a9⟩ := k13 hp
    exact ⟨coef1, T'.coef2, T'.coefP, T'.S, eP, row1, row2, ⟨prP, pr1, pr2, lrP, lr1, lr2, g1, g2, g3, g4, g5, g6, S, coefP, coef2, e1, e2, homo1, homo2,
      k1, k2, k3, k4, k5, k6, k7, k8, k9, k10, k11, fun hn => absurd hp hn,
      fun _ => ⟨x1, x2, xP, T, T', a1, a2, a3, a4, a5, a6, a7, a8, rfl, rfl, rfl⟩⟩, a9⟩
  · exact ⟨coef1, coef2, coefP, S, eP, row1, row2, ⟨prP, pr1, pr2, lrP, lr1, lr2, g1, g2, g3, g4, g5, g6, S, coefP, coef2, e1, e2, homo1, homo2,
      k1, k2, k3, k4, k5, k6, k7, k8, k9, k10, k11, fun _ => ⟨rfl, rfl, rfl⟩, fun hn => absurd hn hp⟩, k12 hp⟩

theorem IsReport.close {cp : Bool} {coef1 coef2 coefP S : Mat α} {E : List α} {row1 row2 : Int} {r : Report α}
    (h : IsReport cp coef1 coef2 coefP S E row1 row2 r) {cp' : Bool} {coef1' coef2' coefP' S' : Mat α} {E' : List α} {row1' row2' : Int} {r' : Report α}
    (h' : IsReport cp' coef1' coef2' coefP' S' E' row1' row2' r') :
    CloseMeaning cp coef1 coef2 coefP S E row1 row2 r cp' coef1' coef2' coefP' S' E' row1' row2' r' := by
  intro N1 n1 N2 n2 M N K c1 c2 C s h1 h2 hP hS N1' n1' N2' n2' N' K' c1' c2' C' s' h1' h2' hP' hS' ha hb ha' hb' ε δ lo hi he na nb hE hd
  have hl := IsReport.lengthE h hP
  obtain ⟨-, rfl⟩ := IsReport.values h h1 h2 hP hS
  obtain ⟨-, rfl⟩ := IsReport.values h' h1' h2' hP' hS'
  refine reportOf_close ha hb ha' hb' he na nb (fun m hm hm' => ?_) fun m _ _ => hd _
  have : (m - 1).toNat < E.length := by omega
  simp only [List.getD_eq_getElem?_getD, List.getElem?_eq_getElem this, Option.getD_some]
  exact hE _ (List.getElem_mem this)

/-- C144 (calc_J): two runs, on whatever files, that end normally: each has tables, and if these are close, so are the numbers printed. -/
theorem C144_run (tos tos' : α → β) (files files' : Str → Option Str) (fuel fuel' : Nat) (args args' : List Str) {par par' : Params.Params} {r r' : Report α}
    (h : calcJRun D tos files fuel args = .ok (par, r)) (h' : calcJRun D tos' files' fuel' args' = .ok (par', r')) :
    ∃ coef1 coef2 coefP S eP row1 row2 coef1' coef2' coefP' S' eP' row1' row2',
      TablesOf tos files fuel par coef1 coef2 coefP S eP row1 row2 ∧ TablesOf tos' files' fuel' par' coef1' coef2' coefP' S' eP' row1' row2' ∧
      CloseMeaning par.counterPoise coef1 coef2 coefP S eP row1 row2 r par'.counterPoise coef1' coef2' coefP' S' eP' row1' row2' r' := by
  obtain ⟨coef1, coef2, coefP, S, eP, row1, row2, t, k⟩ := tablesOf_run h
  obtain ⟨coef1', coef2', coefP', S', eP', row1', row2', t', k'⟩ := tablesOf_run h'
  exact ⟨coef1, coef2, coefP, S, eP, row1, row2, coef1', coef2', coefP', S', eP', row1', row2', t, t', IsReport.close k k'⟩

omit [Num α] in
theorem IsReport.rounded {cp : Bool} {coef1 coef2 coefP S : Mat α} {E : List α} {row1 row2 : Int} {r : Report α}
    (h : IsReport cp coef1 coef2 coefP S E row1 row2 r) : RoundedMeaning cp coef1 coef2 coefP S E row1 row2 r := by
  intro N1 n1 N2 n2 M N K c1 c2 C s h1 h2 hP hS a b E ε δ B ha hb he na nb hB hd
  obtain ⟨-, rfl⟩ := IsReport.values h h1 h2 hP hS
  exact reportOf_rounded ha hb he na nb hB hd

/-- C144 (calc_J, rounded tables): the numbers a run of calc_J prints approximate those of any normalised orbitals and energies its tables are close to. -/
theorem C144_run_rounded (tos : α → β) (files : Str → Option Str) (fuel : Nat) (args : List Str) {par : Params.Params} {r : Report α}
    (h : calcJRun D tos files fuel args = .ok (par, r)) :
    ∃ coef1 coef2 coefP S eP row1 row2, TablesOf tos files fuel par coef1 coef2 coefP S eP row1 row2 ∧
      RoundedMeaning par.counterPoise coef1 coef2 coefP S eP row1 row2 r := by
  obtain ⟨coef1, coef2, coefP, S, eP, row1, row2, t, k⟩ := tablesOf_run h
  exact ⟨coef1, coef2, coefP, S, eP, row1, row2, t, IsReport.rounded k⟩

end
end Verif
