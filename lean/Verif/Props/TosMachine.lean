import Verif.TosMachine
import Verif.Spec.TosMachine
import Verif.Props.Tos
import Verif.ConcreteRounding
/-
C126: `double_tos` in the machine's own arithmetic.
-/
namespace Verif
namespace Tos

theorem nearestQ_eq {w : Rat} {m : Nat} (hw : 0 ≤ w) (h : |w - m| < 1 / 2) : nearestQ w = m := by
  obtain ⟨h1, h2⟩ := abs_lt.1 h
  have hf : (0 : Int) ≤ w.floor := by rw [Rat.le_floor_iff]; exact_mod_cast hw
  have e : ((w.floor.toNat : Nat) : Rat) = (w.floor : Rat) := by
    have := Int.toNat_of_nonneg hf
    exact_mod_cast this
  have a1 : (w.floor : Rat) ≤ w := Rat.floor_le w
  have a2 : w < (w.floor : Rat) + 1 := by exact_mod_cast Rat.lt_floor_add_one w
  unfold nearestQ
  dsimp only
  rw [e]
  have c1 : (w.floor : Rat) < (m : Rat) + 1 := by linarith
  have c2 : (m : Rat) < w.floor + 2 := by linarith
  have c1' : w.floor < (m : Int) + 1 := by exact_mod_cast c1
  have c2' : (m : Int) < w.floor + 2 := by exact_mod_cast c2
  have : w.floor = m ∨ w.floor + 1 = m := by omega
  rcases this with h | h
  · have hq : (w.floor : Rat) = m := by exact_mod_cast h
    rw [if_pos (by rw [hq]; linarith)]
    omega
  · have hq : (w.floor : Rat) + 1 = m := by exact_mod_cast h
    rw [if_neg (by linarith), if_pos (by linarith)]
    omega

theorem log10_eq {q : Rat} {x : Int} (h1 : (10 : Rat) ^ x ≤ q) (h2 : q < (10 : Rat) ^ (x + 1)) : Int.log 10 q = x := by
  have hq : 0 < q := lt_of_lt_of_le (zpow_pos (by norm_num) _) h1
  have a := (Int.zpow_le_iff_le_log (b := 10) (by norm_num) hq (x := x)).1 (by exact_mod_cast h1)
  have b := (Int.lt_zpow_iff_log_lt (b := 10) (by norm_num) hq (x := x + 1)).1 (by exact_mod_cast h2)
  omega

/-- A number close to one of at most six digits is printed like it. -/
theorem significantQ_eq {q : Rat} {m : Nat} {x : Int} (hq : 0 ≤ q) (h5 : 10 ^ 5 ≤ m) (h6 : m < 10 ^ 6)
    (h : |q * 10 ^ (5 - x) - m| ≤ 1 / 50) : 0 < q ∧ significantQ q = (m, x) := by
  have h10 : (10 : Rat) ≠ 0 := by norm_num
  obtain ⟨a1, a2⟩ := abs_le.1 h
  have h5' : (100000 : Rat) ≤ m := by exact_mod_cast h5
  have h6' : (m : Rat) + 1 ≤ 1000000 := by exact_mod_cast h6
  set w := q * 10 ^ (5 - x) with hw
  have hqw : q = w * 10 ^ (x - 5) := by
    rw [hw, mul_assoc, ← zpow_add₀ h10]; simp
  have pos : ∀ k : Int, (0 : Rat) < 10 ^ k := fun k => zpow_pos (by norm_num) k
  have w0 : 0 < w := by linarith
  refine ⟨by rw [hqw]; exact mul_pos w0 (pos _), ?_⟩
  unfold significantQ
  by_cases hlow : w < 100000
  · have hm : m = 10 ^ 5 := by
      have : (m : Rat) < 100001 := by linarith
      have : m < 100001 := by exact_mod_cast this
      omega
    have hlog : Int.log 10 q = x - 1 := by
      refine log10_eq ?_ ?_
      · rw [hqw, show (x - 1 : Int) = 4 + (x - 5) by ring, zpow_add₀ h10]
        refine mul_le_mul_of_nonneg_right ?_ (pos _).le
        norm_num; linarith
      · rw [hqw, show (x - 1 + 1 : Int) = 5 + (x - 5) by ring, zpow_add₀ h10]
        refine mul_lt_mul_of_pos_right ?_ (pos _)
        norm_num; linarith
    rw [hlog]
    have e : q * 10 ^ (5 - (x - 1)) = 10 * w := by
      rw [hqw, mul_assoc, ← zpow_add₀ h10, show (x - 5 + (5 - (x - 1)) : Int) = 1 by ring, zpow_one, mul_comm]
    have hn : nearestQ (10 * w) = 10 ^ 6 := by
      refine nearestQ_eq (by linarith) ?_
      subst hm
      rw [abs_lt]
      push_cast at a1 a2 ⊢
      norm_num at a1 a2 ⊢
      constructor <;> linarith
    dsimp only
    rw [e, hn, if_pos rfl, hm]
    congr 1
    ring
  · have hlog : Int.log 10 q = x := by
      refine log10_eq ?_ ?_
      · rw [hqw]
        conv_lhs => rw [show (x : Int) = 5 + (x - 5) by ring, zpow_add₀ h10]
        refine mul_le_mul_of_nonneg_right ?_ (pos _).le
        norm_num; linarith
      · rw [hqw, show (x + 1 : Int) = 6 + (x - 5) by ring, zpow_add₀ h10]
        refine mul_lt_mul_of_pos_right ?_ (pos _)
        norm_num; linarith
    rw [hlog]
    have hn : nearestQ w = m := nearestQ_eq w0.le (lt_of_le_of_lt h (by norm_num))
    dsimp only
    rw [← hw, hn, if_neg (by omega)]

theorem printG_layout (nd k : Nat) (hk : k ≠ 0) : printG nd k = layout (significant nd k) := by
  unfold printG
  rw [if_neg hk]
  rfl

variable {u t : Rat} {fl : Rat → Rat}

/-- The printed text of a rounded quotient. -/
theorem printQ_fl (R : RoundsMag u t fl) {nd n : Nat} (hnd : nd ≤ 9) (hn : n < 10 ^ 6) :
    printQ (fl ((n : Rat) / ((10 ^ nd : Nat) : Rat))) = printG nd n := by
  by_cases h0 : n = 0
  · subst h0
    simp [printG, printQ, R.zero]
  have h10 : (10 : Rat) ≠ 0 := by norm_num
  obtain ⟨m, x, hs, h6, h5, hv, -⟩ := significant_spec nd (Nat.pos_of_ne_zero h0)
  replace hv := hv hn
  have pos : ∀ k : Int, (0 : Rat) < 10 ^ k := fun k => zpow_pos (by norm_num) k
  have h6' : (m : Rat) ≤ 10 ^ 6 := by exact_mod_cast h6.le
  push_cast
  set q0 : Rat := (n : Rat) / 10 ^ nd with hq0
  have hq0n : 0 ≤ q0 := by positivity
  have hx : -(nd : Int) ≤ x := by
    have h1 : (10 : Rat) ^ (-(nd : Int)) ≤ q0 := by
      rw [zpow_neg, zpow_natCast, hq0, div_eq_mul_inv]
      have : (1 : Rat) ≤ n := by exact_mod_cast Nat.pos_of_ne_zero h0
      nlinarith [inv_pos.2 (show (0 : Rat) < 10 ^ nd by positivity)]
    have h2 : q0 < (10 : Rat) ^ (x + 1) := by
      rw [← hv, show (x + 1 : Int) = 6 + (x - 5) by ring, zpow_add₀ h10]
      refine mul_lt_mul_of_pos_right ?_ (pos _)
      exact_mod_cast h6
    have h3 := lt_of_le_of_lt h1 h2
    have := (zpow_lt_zpow_iff_right₀ (show (1 : Rat) < 10 by norm_num)).1 h3
    omega
  have scale : q0 * 10 ^ (5 - x) = m := by
    rw [← hv, mul_assoc, ← zpow_add₀ h10]; simp
  have big : (10 : Rat) ^ (5 - x) ≤ 10 ^ 14 := by
    have := zpow_le_zpow_right₀ (show (1 : Rat) ≤ 10 by norm_num) (show (5 - x : Int) ≤ 14 by omega)
    exact this
  have key : |fl q0 * 10 ^ (5 - x) - m| ≤ 1 / 50 := by
    rw [← scale, ← sub_mul, abs_mul, abs_of_pos (pos _)]
    calc |fl q0 - q0| * 10 ^ (5 - x) ≤ (u * q0 + t) * 10 ^ (5 - x) := mul_le_mul_of_nonneg_right (R.err q0 hq0n) (pos _).le
      _ = u * m + t * 10 ^ (5 - x) := by rw [← scale]; ring
      _ ≤ 1 / 10 ^ 8 * 10 ^ 6 + 1 / 10 ^ 18 * 10 ^ 14 :=
        add_le_add (mul_le_mul R.u_small h6' (by positivity) (by positivity)) (mul_le_mul R.t_small big (pos _).le (by positivity))
      _ ≤ 1 / 50 := by norm_num
  obtain ⟨hp, hsig⟩ := significantQ_eq (R.nonneg q0 hq0n) h5 h6 key
  rw [printG_layout _ _ h0, hs, printQ, if_neg hp.ne', hsig]

/-- What the machine makes of `f * tens`, rounded to an integer. -/
theorem roundsM (R : RoundsMag u t fl) {x : Rat} (hx : 0 ≤ x) :
    let n := ((fl x + 1 / 2).floor.toNat : Nat)
    (n : Rat) - 1 / 2 - (u * x + t) ≤ x ∧ x < (n : Rat) + 1 / 2 + (u * x + t) ∧ ((n : Rat) - 1 / 2 ≤ fl x ∧ fl x < n + 1 / 2) := by
  intro n
  have := rounded_spec 0 ⟨false, fl x⟩ (R.nonneg x hx)
  unfold RoundsTo rounded at this
  simp only [pow_zero, mul_one] at this
  obtain ⟨h1, h2⟩ := this
  obtain ⟨e1, e2⟩ := abs_le.1 (R.err x hx)
  refine ⟨?_, ?_, h1, h2⟩ <;> linarith

/-- The number a text stands for, in units of 10^-nd, when `f` is small. -/
theorem textM_eq (R : RoundsMag u t fl) {nd : Nat} (hnd : nd ≤ 9) (f : Double)
    (h6 : ((fl (f.abs * 10 ^ nd) + 1 / 2).floor.toNat : Nat) < 10 ^ 6) :
    textM fl (10 ^ nd) f = (if f.neg then ['-'] else []) ++ printG nd ((fl (f.abs * 10 ^ nd) + 1 / 2).floor.toNat) := by
  unfold textM
  have e : ((10 ^ nd : Nat) : Rat) = 10 ^ nd := by push_cast; rfl
  rw [← printQ_fl R hnd h6, e]

/-- C126 (which precisions work): `double_tos(f, nd)` returns a text for nd up to 9; from 10 to 308 its conversion to `int` is undefined
behaviour; beyond it throws `out_of_range`. -/
theorem C126_precision (fl : Rat → Rat) (nd : Nat) (f : Double) :
    (nd ≤ 9 → ∃ s, doubleTosM fl nd f = .ok s) ∧ (10 ≤ nd → nd ≤ 308 → doubleTosM fl nd f = .ub) ∧
    (309 ≤ nd → doubleTosM fl nd f = .throw .outOfRange) := by
  refine ⟨fun h => ⟨_, by rw [doubleTosM, tens, if_pos h]; rfl⟩, fun h1 h2 => ?_, fun h => ?_⟩
  · rw [doubleTosM, tens, if_neg (by omega), if_pos h2]; rfl
  · rw [doubleTosM, tens, if_neg (by omega), if_neg (by omega)]; rfl

theorem SmallM.lt (R : RoundsMag u t fl) {nd : Nat} {f : Double} (h : SmallM nd f) :
    ((fl (f.abs * 10 ^ nd) + 1 / 2).floor.toNat : Nat) < 10 ^ 6 := by
  have h0 : 0 ≤ f.abs * 10 ^ nd := mul_nonneg h.1 (by positivity)
  obtain ⟨a, -, -⟩ := roundsM R h0
  have hu : u * (f.abs * 10 ^ nd) ≤ 1 / 10 ^ 8 * 10 ^ 6 :=
    mul_le_mul R.u_small (by linarith [h.2]) h0 (by positivity)
  have ht := R.t_small
  have h2 := h.2
  have : (((fl (f.abs * 10 ^ nd) + 1 / 2).floor.toNat : Nat) : Rat) < 1000000 := by
    norm_num at hu ht h2
    linarith
  have : ((fl (f.abs * 10 ^ nd) + 1 / 2).floor.toNat : Nat) < 1000000 := by exact_mod_cast this
  exact this

theorem SmallM.small {nd : Nat} {f : Double} (h : SmallM nd f) : Small nd f := ⟨h.1, by have := h.2; linarith⟩

/-- C126 (text): for magnitudes below 10^6 units of the last decimal, in any arithmetic with at least eight digits, the text is a numeral
for an integer `n` times 10^-nd, `n` being `f` in these units rounded to an integer up to the error of one multiplication; there is a
minus sign exactly for negative numbers. -/
theorem C126_text (R : RoundsMag u t fl) {nd : Nat} (hnd : nd ≤ 9) (f : Double) (h : SmallM nd f) :
    ∃ (s : Str) (n : Nat), doubleTosM fl nd f = .ok s ∧ numeralVal s = (if f.neg then -1 else 1) * (n / 10 ^ nd) ∧
      ((∃ r, s = '-' :: r) ↔ f.neg = true) ∧ |f.abs * 10 ^ nd - n| ≤ 1 / 2 + (u * (f.abs * 10 ^ nd) + t) := by
  have h0 : 0 ≤ f.abs * 10 ^ nd := mul_nonneg h.1 (by positivity)
  have h6 := h.lt R
  set n := (fl (f.abs * 10 ^ nd) + 1 / 2).floor.toNat with hn
  have hp : (0 : Rat) < 10 ^ nd := by positivity
  have C := C81_text nd ⟨f.neg, (n : Rat) / 10 ^ nd⟩ (by positivity) (n := n)
    ⟨by rw [div_mul_cancel₀ _ hp.ne']; linarith, by rw [div_mul_cancel₀ _ hp.ne']; linarith⟩ h6
  have er : rounded nd ⟨f.neg, (n : Rat) / 10 ^ nd⟩ = n :=
    (rounded_spec nd ⟨f.neg, (n : Rat) / 10 ^ nd⟩ (by positivity)).unique
      ⟨by rw [div_mul_cancel₀ _ hp.ne']; linarith, by rw [div_mul_cancel₀ _ hp.ne']; linarith⟩
  rw [doubleTos, er] at C
  refine ⟨_, n, by rw [doubleTosM, tens, if_pos hnd]; rfl, ?_, ?_, ?_⟩
  · rw [textM_eq R hnd f h6]; exact C.1
  · rw [textM_eq R hnd f h6]; exact C.2
  · obtain ⟨a, b, -⟩ := roundsM R h0
    rw [abs_le]
    constructor <;> linarith

/-- C126 (away from ties the machine agrees with exact arithmetic): then all of C81 applies. -/
theorem C126_exact (R : RoundsMag u t fl) {nd : Nat} (hnd : nd ≤ 9) (f : Double) (h : SmallM nd f) (hc : Clear u t nd f.abs) :
    doubleTosM fl nd f = .ok (doubleTos nd f) := by
  have h0 : 0 ≤ f.abs * 10 ^ nd := mul_nonneg h.1 (by positivity)
  rw [doubleTosM, tens, if_pos hnd]
  show Res.ok _ = Res.ok _
  rw [textM_eq R hnd f (h.lt R), doubleTos]
  congr 3
  obtain ⟨a, b, a', b'⟩ := roundsM R h0
  refine RoundsTo.unique (nd := nd) (x := f.abs) ?_ (rounded_spec nd f h.1)
  set n := (fl (f.abs * 10 ^ nd) + 1 / 2).floor.toNat with hn
  have hx := hc
  constructor
  · by_contra hlt
    push Not at hlt
    have hn0 : n ≠ 0 := by
      intro e
      rw [e] at hlt
      norm_num at hlt
      linarith
    obtain ⟨k, hk⟩ : ∃ k, n = k + 1 := ⟨n - 1, by omega⟩
    have hcl := hc k
    rw [hk] at a hlt
    push_cast at a hlt
    rw [abs_of_neg (by linarith)] at hcl
    linarith
  · by_contra hlt
    push Not at hlt
    have hcl := hc n
    rw [abs_of_nonneg (by linarith)] at hcl
    linarith

/-- C126 (two numbers): clear of ties, texts are the same exactly when the numbers agree to `nd` decimals. -/
theorem C126_same (R : RoundsMag u t fl) {nd : Nat} (hnd : nd ≤ 9) {f g : Double} (hf : SmallM nd f) (hg : SmallM nd g)
    (cf : Clear u t nd f.abs) (cg : Clear u t nd g.abs) : doubleTosM fl nd f = doubleTosM fl nd g ↔ Agree nd f g := by
  rw [C126_exact R hnd f hf cf, C126_exact R hnd g hg cg, ← C81_same_partial nd hf.small hg.small]
  exact ⟨Res.ok.inj, congrArg _⟩

/-- C126 (never far apart): numbers with the same text have the same sign and differ by at most 10^-nd, up to the error of one
multiplication each. -/
theorem C126_close (R : RoundsMag u t fl) {nd : Nat} (hnd : nd ≤ 9) {f g : Double} (hf : SmallM nd f) (hg : SmallM nd g)
    (e : doubleTosM fl nd f = doubleTosM fl nd g) :
    f.neg = g.neg ∧ |f.val - g.val| ≤ (1 + 2 * (10 ^ 6 * u + t)) / 10 ^ nd := by
  obtain ⟨s, n, h1, h2, h3, h4⟩ := C126_text R hnd f hf
  obtain ⟨s', n', h1', h2', h3', h4'⟩ := C126_text R hnd g hg
  have es : s = s' := by rw [h1, h1'] at e; exact Res.ok.inj e
  subst es
  have hs : f.neg = g.neg := by rw [Bool.eq_iff_iff, ← h3, ← h3']
  have hp : (0 : Rat) < 10 ^ nd := by positivity
  have hnn : (n : Rat) = n' := by
    rw [h2, hs] at h2'
    cases hgn : g.neg
    · simp only [hgn, Bool.false_eq_true, if_false] at h2'
      field_simp at h2'; exact h2'
    · simp only [hgn, if_true] at h2'
      field_simp at h2'
      linarith
  refine ⟨hs, ?_⟩
  have hval : |f.val - g.val| = |f.abs - g.abs| := by
    unfold Double.val
    rw [hs]
    split
    · rw [← abs_neg]; congr 1; ring
    · rfl
  have bound : ∀ {f : Double}, SmallM nd f → u * (f.abs * 10 ^ nd) ≤ 10 ^ 6 * u := by
    intro f h
    rw [mul_comm]
    exact mul_le_mul_of_nonneg_right (by linarith [h.2]) R.u_nonneg
  have bf := bound hf
  have bg := bound hg
  have ea : |f.abs - g.abs| * 10 ^ nd = |f.abs * 10 ^ nd - g.abs * 10 ^ nd| := by
    rw [← sub_mul, abs_mul, abs_of_pos hp]
  rw [hval, le_div_iff₀ hp, ea, abs_le]
  rw [hnn] at h4
  obtain ⟨a1, a2⟩ := abs_le.1 h4
  obtain ⟨b1, b2⟩ := abs_le.1 h4'
  constructor <;> linarith

open Mat in
/-- C126 (columns): in the machine's arithmetic, `matchCol(mat, nd)` pairs a column only with one whose entries have the same signs and
differ by no more than stated, and it leaves a column unpaired only if none agrees with it clear of ties. -/
theorem C126_matchCol (R : RoundsMag u t fl) {nd : Nat} (hnd : nd ≤ 9) {m mat : Mat Double} (h : WF m) (h' : WF mat)
    (hs : m.shel = 1) (hs' : mat.shel = 1) (hr : mat.rows = m.rows)
    (hm : ∀ j i v, m.getElem2 j i = .ok v → SmallM nd v) (hm' : ∀ j i v, mat.getElem2 j i = .ok v → SmallM nd v) :
    ∃ v, matchCol (textM fl (10 ^ nd)) m mat = .ok v ∧ (v.length : Int) = m.cols ∧
      ∀ (k : Nat) (hk : k < v.length),
        (v[k] = -1 ∧ ∀ ii, 1 ≤ ii → ii ≤ mat.cols → ¬ ∀ j, 1 ≤ j → j ≤ m.rows → ∃ a b, m.getElem2 j (k + 1) = .ok a ∧
          mat.getElem2 j ii = .ok b ∧ Agree nd a b ∧ Clear u t nd a.abs ∧ Clear u t nd b.abs) ∨
        (1 ≤ v[k] ∧ v[k] ≤ mat.cols ∧ ∀ j, 1 ≤ j → j ≤ m.rows → ∃ a b, m.getElem2 j (k + 1) = .ok a ∧
          mat.getElem2 j v[k] = .ok b ∧ a.neg = b.neg ∧ |a.val - b.val| ≤ (1 + 2 * (10 ^ 6 * u + t)) / 10 ^ nd) := by
  have wrap : ∀ f, doubleTosM fl nd f = .ok (textM fl (10 ^ nd) f) := by
    intro f; rw [doubleTosM, tens, if_pos hnd]; rfl
  obtain ⟨v, hv, hl, hall⟩ := C22_matchCol (textM fl (10 ^ nd)) h h' hs hs' hr
  refine ⟨v, hv, hl, fun k hk => ?_⟩
  rcases hall k hk with ⟨e, hno⟩ | ⟨h1, h2, hyes, -⟩
  · refine .inl ⟨e, fun ii i1 i2 hh => hno ii i1 i2 ?_⟩
    intro j j1 j2
    obtain ⟨a, b, ha, hb, hag, ca, cb⟩ := hh j j1 j2
    refine ⟨a, b, ha, hb, ?_⟩
    have := (C126_same R hnd (hm _ _ _ ha) (hm' _ _ _ hb) ca cb).2 hag
    rw [wrap, wrap] at this
    exact Res.ok.inj this
  · refine .inr ⟨h1, h2, fun j j1 j2 => ?_⟩
    obtain ⟨a, b, ha, hb, e⟩ := hyes j j1 j2
    refine ⟨a, b, ha, hb, C126_close R hnd (hm _ _ _ ha) (hm' _ _ _ hb) ?_⟩
    rw [wrap, wrap, e]

/-- Binary floating point with 53 digits is such an arithmetic. -/
theorem binary_mag : RoundsMag ((1 / 2) ^ 52) 0 (Machine.Fl.binary 52).rnd where
  zero := Machine.Fl.rnd_zero _
  nonneg x hx := by
    have h := abs_le.1 (Machine.Fl.binary_err 52 x)
    rw [abs_of_nonneg hx] at h
    have : ((1 / 2 : Rat) ^ 52) * x ≤ x := by
      have : ((1 / 2 : Rat) ^ 52) ≤ 1 := by norm_num
      nlinarith
    linarith [h.1]
  err x hx := by
    have h := Machine.Fl.binary_err 52 x
    rw [abs_of_nonneg hx] at h
    linarith
  u_nonneg := by positivity
  t_nonneg := le_refl _
  u_small := by norm_num
  t_small := by norm_num

/-- One third with four decimals is small and clear of ties. -/
example : SmallM 4 ⟨true, 1 / 3⟩ ∧ Clear ((1 / 2) ^ 52) 0 4 (1 / 3) := by
  refine ⟨⟨by norm_num, by norm_num⟩, fun n => ?_⟩
  by_cases h : n ≤ 3332
  · have : (n : Rat) ≤ 3332 := by exact_mod_cast h
    rw [abs_of_pos (by norm_num; linarith)]
    norm_num; linarith
  · have : (3333 : Rat) ≤ n := by exact_mod_cast (by omega : 3333 ≤ n)
    rw [abs_of_neg (by norm_num; linarith)]
    norm_num; linarith

example : doubleTosM (Machine.Fl.binary 52).rnd 4 ⟨true, 1 / 3⟩ = .ok (lit "-0.3333") := by
  rw [C126_exact binary_mag (by norm_num)]
  · decide +kernel
  · exact ⟨by norm_num, by norm_num⟩
  · intro n
    by_cases h : n ≤ 3332
    · have : (n : Rat) ≤ 3332 := by exact_mod_cast h
      rw [abs_of_pos (by norm_num; linarith)]
      norm_num; linarith
    · have : (3333 : Rat) ≤ n := by exact_mod_cast (by omega : 3333 ≤ n)
      rw [abs_of_neg (by norm_num; linarith)]
      norm_num; linarith

end Tos
end Verif
