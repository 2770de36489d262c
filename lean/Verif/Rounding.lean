import Verif.Spec.Rounding
import Verif.QCTransfer
import Verif.Props.Machine
import Mathlib.Tactic.Linarith
import Mathlib.Tactic.Ring
import Mathlib.Tactic.Positivity
import Mathlib.Tactic.FieldSimp
/-
Error analysis behind C105.
-/
namespace Verif.Machine
open Finset
variable {α K : Type} [Zero α] [One α] [Add α] [Sub α] [Mul α] [Div α] [Field K] [LinearOrder K] [IsStrictOrderedRing K]

theorem growth_nonneg {u : K} (hu : 0 ≤ u) (n : Nat) : 0 ≤ growth u n := by
  unfold growth
  have : (1 : K) ≤ (1 + u) ^ n := one_le_pow₀ (by linarith)
  linarith

theorem growth_mono {u : K} (hu : 0 ≤ u) {n m : Nat} (h : n ≤ m) : growth u n ≤ growth u m := by
  unfold growth
  have : (1 + u) ^ n ≤ (1 + u) ^ m := pow_le_pow_right₀ (by linarith) h
  linarith

theorem growth_mul (u : K) (n m : Nat) : growth u n * (1 + growth u m) + growth u m = growth u (n + m) := by
  unfold growth
  rw [pow_add]; ring

theorem growth_succ (u : K) (n : Nat) : growth u n + u * (1 + growth u n) = growth u (n + 1) := by
  unfold growth
  rw [pow_succ]; ring

/-- `x` approximates `e` after `n` roundings; `a` bounds the exact value with all signs made positive. -/
structure Est (u : K) (n : Nat) (x e a : K) : Prop where
  err : |x - e| ≤ growth u n * a
  abs : |e| ≤ a

namespace Est
variable {u : K} {n m : Nat} {x y e f a b : K}

theorem pos (h : Est u n x e a) : 0 ≤ a := (abs_nonneg e).trans h.abs

theorem size (h : Est u n x e a) : |x| ≤ (1 + growth u n) * a := by
  have := abs_add_le (x - e) e
  rw [sub_add_cancel] at this
  linarith [h.err, h.abs]

theorem mono (hu : 0 ≤ u) (h : Est u n x e a) (hm : n ≤ m) : Est u m x e a :=
  ⟨h.err.trans (mul_le_mul_of_nonneg_right (growth_mono hu hm) h.pos), h.abs⟩

theorem exact (u : K) (x : K) : Est u 0 x x |x| := ⟨by simp [growth], le_refl _⟩

theorem mulExact (hu : 0 ≤ u) (h : Est u n x e a) (g : Est u m y f b) : Est u (n + m) (x * y) (e * f) (a * b) := by
  refine ⟨?_, ?_⟩
  · have e1 : x * y - e * f = (x - e) * y + e * (y - f) := by ring
    have e2 : |x * y - e * f| ≤ |x - e| * |y| + |e| * |y - f| := by
      rw [e1, ← abs_mul, ← abs_mul]; exact abs_add_le _ _
    have e3 : |x - e| * |y| ≤ (growth u n * a) * ((1 + growth u m) * b) :=
      mul_le_mul h.err g.size (abs_nonneg _) (mul_nonneg (growth_nonneg hu n) h.pos)
    have e4 : |e| * |y - f| ≤ a * (growth u m * b) := mul_le_mul h.abs g.err (abs_nonneg _) h.pos
    rw [← growth_mul]
    calc _ ≤ _ := e2
      _ ≤ _ := add_le_add e3 e4
      _ = _ := by ring
  · rw [abs_mul]; exact mul_le_mul h.abs g.abs (abs_nonneg _) h.pos

/-- one more rounding -/
theorem step (hu : 0 ≤ u) {z : K} (hz : |z - x| ≤ u * |x|) (h : Est u n x e a) : Est u (n + 1) z e a := by
  refine ⟨?_, h.abs⟩
  have e1 : |z - e| ≤ |z - x| + |x - e| := by
    have := abs_add_le (z - x) (x - e); rwa [sub_add_sub_cancel] at this
  have e2 : u * |x| ≤ u * ((1 + growth u n) * a) := mul_le_mul_of_nonneg_left h.size hu
  rw [← growth_succ]
  calc _ ≤ _ := e1
    _ ≤ u * ((1 + growth u n) * a) + growth u n * a := add_le_add (hz.trans e2) h.err
    _ = _ := by ring

theorem addExact (h : Est u n x e a) (g : Est u n y f b) : Est u n (x + y) (e + f) (a + b) := by
  refine ⟨?_, (abs_add_le _ _).trans (add_le_add h.abs g.abs)⟩
  have e1 : x + y - (e + f) = (x - e) + (y - f) := by ring
  rw [e1, mul_add]
  exact (abs_add_le _ _).trans (add_le_add h.err g.err)

theorem subExact (h : Est u n x e a) (g : Est u n y f b) : Est u n (x - y) (e - f) (a + b) := by
  refine ⟨?_, (abs_sub _ _).trans (add_le_add h.abs g.abs)⟩
  have e1 : x - y - (e - f) = (x - e) - (y - f) := by ring
  rw [e1, mul_add]
  exact (abs_sub _ _).trans (add_le_add h.err g.err)

end Est

section
variable {u : K} {val : α → K} (R : Rounds u val)
include R

theorem est_mul {n m : Nat} {x y : α} {e f a b : K} (h : Est u n (val x) e a) (g : Est u m (val y) f b) :
    Est u (n + m + 1) (val (x * y)) (e * f) (a * b) := Est.step R.nonneg (R.mul x y) (Est.mulExact R.nonneg h g)

theorem est_add {n : Nat} {x y : α} {e f a b : K} (h : Est u n (val x) e a) (g : Est u n (val y) f b) :
    Est u (n + 1) (val (x + y)) (e + f) (a + b) := Est.step R.nonneg (R.add x y) (Est.addExact h g)

theorem est_sub {n : Nat} {x y : α} {e f a b : K} (h : Est u n (val x) e a) (g : Est u n (val y) f b) :
    Est u (n + 1) (val (x - y)) (e - f) (a + b) := Est.step R.nonneg (R.sub x y) (Est.subExact h g)

theorem est_sum {n : Nat} {x : Int → α} {e a : Int → K} (h : ∀ k, Est u n (val (x k)) (e k) (a k)) (k : Nat) :
    Est u (n + k) (val (sum x k)) (sum e k) (sum a k) := by
  induction k with
  | zero => simp only [sum, R.zero]; exact ⟨by simp, by simp⟩
  | succ k ih => exact est_add R ih ((h _).mono R.nonneg (Nat.le_add_right n k))

theorem est_dot {n m : Nat} {x y : Int → α} {e f a b : Int → K} (h : ∀ k, Est u n (val (x k)) (e k) (a k))
    (g : ∀ k, Est u m (val (y k)) (f k) (b k)) (N : Int) :
    Est u (n + m + 1 + N.toNat) (val (dot N x y)) (dot N e f) (dot N a b) :=
  est_sum R (fun k => est_mul R (h k) (g k)) _

theorem est_proj (P N : Int) (z : Int → α) (s C : Int → Int → α) (m : Int) :
    Est u (P.toNat + N.toNat + 2) (val (proj P N z s C m)) (proj P N (fun p => val (z p)) (fun p q => val (s p q)) (fun p q => val (C p q)) m)
      (proj P N (size1 fun p => val (z p)) (size2 fun p q => val (s p q)) (size2 fun p q => val (C p q)) m) := by
  refine Est.mono R.nonneg (n := 0 + (0 + 0 + 1 + N.toNat) + 1 + P.toNat) ?_ (by omega)
  exact est_dot R (fun k => Est.exact u _) (fun p => est_dot R (fun q => Est.exact u _) (fun q => Est.exact u _) N) P

theorem est_weighted {n : Nat} (M : Int) (E : Int → α) {g : Int → α} {e a : Int → K} (h : ∀ k, Est u n (val (g k)) (e k) (a k)) (k : Int) :
    Est u (n + 1 + M.toNat) (val (weighted M E g k)) (weighted M (fun l => val (E l)) e k) (weighted M (size1 fun l => val (E l)) a k) := by
  refine Est.mono R.nonneg (n := 0 + n + 1 + M.toNat) ?_ (by omega)
  refine est_dot R (fun l => ?_) h M
  by_cases hk : k = l
  · rw [if_pos hk, if_pos hk, if_pos hk]; exact Est.exact u _
  · rw [if_neg hk, if_neg hk, if_neg hk, R.zero]; simpa using Est.exact u (0 : K)

end

section
variable {F : Type} [Field F]

theorem proj_exact (P N : Int) (z : Int → F) (s C : Int → Int → F) : proj P N z s C = QC.proj P N z s C := by
  funext m; rw [← projSeq_machine]; exact QC.projSeq_eq ..

theorem report_exact (M : Int) (gA gB E : Int → F) : report M gA gB E = QC.reportOf M gA gB E := by
  rw [← reportSeq_machine]; exact QC.reportSeq_eq ..

theorem coupling_exact (M : Int) (gA gB E : Int → F) : dot M gB (weighted M E gA) = QC.couplingJ M gA gB E :=
  congrArg QC.Report.jab (report_exact M gA gB E)

theorem site_exact (M : Int) (g E : Int → F) : dot M g (weighted M E g) = QC.siteEnergy M g E :=
  congrArg QC.Report.ea (report_exact M g g E)

theorem overlap_exact (M : Int) (gA gB : Int → F) : dot M gB gA = QC.overlapAB M gA gB :=
  congrArg QC.Report.sab (report_exact M gA gB gA)

end

/-- The error of a quotient. -/
theorem quotient {x y X Y dX dY : K} (hx : |x - X| ≤ dX) (hy : |y - Y| ≤ dY) (h : dY < |Y|) :
    y ≠ 0 ∧ |x / y - X / Y| ≤ (dX + |X / Y| * dY) / (|Y| - dY) := by
  have hY : Y ≠ 0 := by intro e; rw [e, abs_zero] at h; linarith [(abs_nonneg (y - Y)).trans hy]
  have hpos : 0 < |Y| - dY := by linarith
  have hsize : |Y| - dY ≤ |y| := by
    have := abs_sub_abs_le_abs_sub Y y
    rw [abs_sub_comm] at this
    linarith
  have hy0 : y ≠ 0 := by intro e; rw [e, abs_zero] at hsize; linarith
  refine ⟨hy0, ?_⟩
  have e1 : x / y - X / Y = ((x - X) - X / Y * (y - Y)) / y := by field_simp; ring
  rw [e1, abs_div]
  have e2 : |x - X - X / Y * (y - Y)| ≤ dX + |X / Y| * dY := by
    refine (abs_sub _ _).trans (add_le_add hx ?_)
    rw [abs_mul]
    exact mul_le_mul_of_nonneg_left hy (abs_nonneg _)
  exact div_le_div₀ ((abs_nonneg _).trans e2) e2 hpos hsize

section
variable {u : K} {val : α → K} (R : Rounds u val)
include R

theorem est_half : Est u 0 (val (1 / (1 + 1))) (1 / 2) (1 / 2) := by
  rw [R.half]
  have := Est.exact u (1 / 2 : K)
  rwa [abs_of_nonneg (by norm_num)] at this

theorem est_one : Est u 0 (val 1) 1 1 := by
  rw [R.one]
  have := Est.exact u (1 : K)
  rwa [abs_one] at this

/-- The error of a rounded quotient. -/
theorem est_div {x y : α} {X Y dX dY : K} (hx : |val x - X| ≤ dX) (hy : |val y - Y| ≤ dY) (h : dY < |Y|) :
    |val (x / y) - X / Y| ≤ (dX + |X / Y| * dY) / (|Y| - dY) + u * (|X / Y| + (dX + |X / Y| * dY) / (|Y| - dY)) := by
  obtain ⟨hy0, hq⟩ := quotient hx hy h
  have e1 := abs_add_le (val (x / y) - val x / val y) (val x / val y - X / Y)
  rw [sub_add_sub_cancel] at e1
  have e2 := abs_add_le (val x / val y - X / Y) (X / Y)
  rw [sub_add_cancel] at e2
  have e3 := mul_le_mul_of_nonneg_left (e2.trans (add_le_add hq le_rfl)) R.nonneg
  rw [add_comm |X / Y|]
  linarith [R.div x y hy0]

/-- The error analysis of the whole computation. -/
theorem report_accurate (P N M : Int) (zA zB : Int → α) (s C : Int → Int → α) (E : Int → α) :
    Accurate u val (report M (proj P N zA s C) (proj P N zB s C) E) P N M (fun p => val (zA p)) (fun p => val (zB p))
      (fun p q => val (s p q)) (fun p q => val (C p q)) (fun l => val (E l)) := by
  have pA := est_proj R P N zA s C
  have pB := est_proj R P N zB s C
  have j := est_dot R pB (est_weighted R M E pA) M
  have a := est_dot R pA (est_weighted R M E pA) M
  have b := est_dot R pB (est_weighted R M E pB) M
  have o := est_dot R pB pA M
  simp only [proj_exact] at j a b o
  rw [coupling_exact, coupling_exact] at j
  rw [site_exact, site_exact] at a b
  rw [overlap_exact, overlap_exact] at o
  replace j := Est.mono R.nonneg j (m := 2 * P.toNat + 2 * N.toNat + 2 * M.toNat + 6) (by omega)
  replace a := Est.mono R.nonneg a (m := 2 * P.toNat + 2 * N.toNat + 2 * M.toNat + 6) (by omega)
  replace b := Est.mono R.nonneg b (m := 2 * P.toNat + 2 * N.toNat + 2 * M.toNat + 6) (by omega)
  replace o := Est.mono R.nonneg o (m := 2 * P.toNat + 2 * N.toNat + M.toNat + 5) (by omega)
  refine ⟨j.err, a.err, b.err, o.err, ?_⟩
  intro gA gB aA aB Y dX dY d hgA hgB haA haB hY hdX hdY hlt hd
  rw [← hgA, ← hgB, ← haA, ← haB] at j o
  rw [← hgA, ← haA] at a
  rw [← hgB, ← haB] at b
  have num := est_sub R (Est.mono R.nonneg j (m := 4 * P.toNat + 4 * N.toNat + 3 * M.toNat + 14) (by omega))
    (Est.mono R.nonneg (est_mul R (est_mul R (est_half R) (est_add R b a)) o) (by omega))
  have den := est_sub R (Est.mono R.nonneg (est_one R) (m := 4 * P.toNat + 4 * N.toNat + 2 * M.toNat + 11) (by omega))
    (Est.mono R.nonneg (est_mul R o o) (by omega))
  have ex := num.err
  have ey := den.err
  have hX : QC.couplingJ M aA aB (size1 fun l => val (E l)) + 1 / 2 * (QC.siteEnergy M aB (size1 fun l => val (E l)) +
      QC.siteEnergy M aA (size1 fun l => val (E l))) * QC.overlapAB M aA aB = QC.couplingJ M aA aB (size1 fun l => val (E l)) +
      (QC.siteEnergy M aA (size1 fun l => val (E l)) + QC.siteEnergy M aB (size1 fun l => val (E l))) * QC.overlapAB M aA aB / 2 := by ring
  rw [hX, ← hdX] at ex
  rw [← pow_two, ← pow_two, ← hdY, ← hY] at ey
  have hq := est_div R ex ey hlt
  have hc : (QC.couplingJ M gA gB (fun l => val (E l)) - 1 / 2 * (QC.siteEnergy M gB (fun l => val (E l)) +
      QC.siteEnergy M gA (fun l => val (E l))) * QC.overlapAB M gA gB) / Y = QC.coupling M gA gB (fun l => val (E l)) := by
    unfold QC.coupling
    rw [hY]
    have : ∀ x y z w : K, x - 1 / 2 * (y + z) * w = x - (z + y) * w / 2 := fun x y z w => by ring
    rw [this]
  rw [hc, ← hd] at hq
  exact hq

end

end Verif.Machine
