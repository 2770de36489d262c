import Verif.TosLemmas
import Verif.Props.MatrixB
/-
C81: atoms are matched by the text of their coordinates, printed by `double_tos` with four decimals.
-/
namespace Verif
namespace Tos

/-- C81 (text): below 10^6 units of the last decimal, the text is a numeral for the value rounded to `nd` decimals, with a minus sign
exactly for negative numbers (and negative zeros). -/
theorem C81_text (nd : Nat) (f : Double) (hf : 0 ≤ f.abs) {n : Nat} (hn : RoundsTo nd f.abs n) (h6 : n < 10 ^ 6) :
    numeralVal (doubleTos nd f) = (if f.neg then -1 else 1) * (n / 10 ^ nd) ∧ ((∃ t, doubleTos nd f = '-' :: t) ↔ f.neg = true) := by
  have e : rounded nd f = n := (rounded_spec nd f hf).unique hn
  have hv : unsignedVal (printG nd n) = n / 10 ^ nd := by
    by_cases h0 : n = 0
    · subst h0
      simp [printG, unsignedVal, mantissaVal, digitsVal, exponentVal]
    · obtain ⟨m, x, hs, h1, h2, h3, h4⟩ := significant_spec nd (Nat.pos_of_ne_zero h0)
      rw [printG_val h0 hs h1, h3 h6]
  unfold doubleTos
  rw [e]
  cases hneg : f.neg
  · simp only [Bool.false_eq_true, if_false, List.nil_append, one_mul, iff_false]
    refine ⟨?_, fun ⟨t, ht⟩ => printG_head _ _ t ht⟩
    rw [numeralVal_unsigned (printG_head _ _), hv]
  · simp only [if_true, iff_true]
    refine ⟨?_, _, rfl⟩
    show -unsignedVal (printG nd n) = _
    rw [hv]; ring

example : RoundsTo 4 (1 / 3) 3333 := by constructor <;> norm_num
example : doubleTos 4 ⟨true, 1 / 3⟩ = "-0.3333".toList := by decide +kernel
example : doubleTos 4 ⟨false, 25 / 2⟩ = "12.5".toList := by decide +kernel

/-- Two numbers agree to `nd` decimals: same sign, and the same nearest multiple of 10^-nd. -/
def Agree (nd : Nat) (f g : Double) : Prop := f.neg = g.neg ∧ ∃ n, RoundsTo nd f.abs n ∧ RoundsTo nd g.abs n

/-- `f` has at most six significant digits before and after the point together: with four decimals, less than 100. -/
def Small (nd : Nat) (f : Double) : Prop := 0 ≤ f.abs ∧ f.abs * 10 ^ nd < 10 ^ 6 - 1 / 2

/-- C81 (two numbers): texts are the same exactly when the numbers agree to `nd` decimals. Missing from the full property: numbers of
10^6 units and more (see `C81_refuted_large`), and equal numbers of different sign, which are zeros (see `C81_refuted_zero`). -/
theorem C81_same_partial (nd : Nat) {f g : Double} (hf : Small nd f) (hg : Small nd g) :
    doubleTos nd f = doubleTos nd g ↔ Agree nd f g := by
  have small : ∀ {f : Double}, Small nd f → rounded nd f < 10 ^ 6 := by
    intro f h
    obtain ⟨a, b⟩ := rounded_spec nd f h.1
    have h2 := h.2
    have : ((rounded nd f : Nat) : Rat) < 10 ^ 6 := by linarith
    exact_mod_cast this
  have rf := rounded_spec nd f hf.1
  have rg := rounded_spec nd g hg.1
  constructor
  · intro e
    obtain ⟨f1, f2⟩ := C81_text nd f hf.1 rf (small hf)
    obtain ⟨g1, g2⟩ := C81_text nd g hg.1 rg (small hg)
    have hs : f.neg = g.neg := by
      rw [Bool.eq_iff_iff, ← f2, ← g2, e]
    rw [e, g1, hs] at f1
    have h10 : (10 : Rat) ^ nd ≠ 0 := by positivity
    have : ((rounded nd g : Nat) : Rat) = rounded nd f := by
      cases hgn : g.neg
      · simp only [hgn, Bool.false_eq_true, if_false] at f1
        field_simp at f1; exact f1
      · simp only [hgn, if_true] at f1
        field_simp at f1
        linarith
    have : rounded nd g = rounded nd f := by exact_mod_cast this
    exact ⟨hs, _, rf, this ▸ rg⟩
  · rintro ⟨hs, n, hn, hn'⟩
    unfold doubleTos
    rw [hs, rf.unique hn, rg.unique hn']

example : Small 4 ⟨false, 1 / 3⟩ ∧ Small 4 ⟨false, 33333 / 100000⟩ ∧ Agree 4 ⟨false, 1 / 3⟩ ⟨false, 33333 / 100000⟩ := by
  refine ⟨⟨by norm_num, by norm_num⟩, ⟨by norm_num, by norm_num⟩, rfl, 3333, ⟨by norm_num, by norm_num⟩, ⟨by norm_num, by norm_num⟩⟩

/-- C81 (never far apart): numbers of any size with the same text differ by at most 10^-nd and one hundred-thousandth of their size. -/
theorem C81_close (nd : Nat) {f g : Double} (hf : 0 ≤ f.abs) (hg : 0 ≤ g.abs) (e : doubleTos nd f = doubleTos nd g) :
    f.neg = g.neg ∧ |f.val - g.val| ≤ (1 / 10 ^ nd) * (1 + 1 / 200000) + (f.abs + g.abs) / 200000 ∧
    (Small nd f → Small nd g → |f.val - g.val| < 1 / 10 ^ nd) := by
  have rf := rounded_spec nd f hf
  have rg := rounded_spec nd g hg
  have hp : (0 : Rat) < 10 ^ nd := by positivity
  have hs : f.neg = g.neg := by
    unfold doubleTos at e
    cases h1 : f.neg <;> cases h2 : g.neg <;> simp only [h1, h2, Bool.false_eq_true, if_false, if_true, List.nil_append] at e ⊢
    · exact absurd e (printG_head _ _ _)
    · exact absurd e.symm (printG_head _ _ _)
  have hval : |f.val - g.val| = |f.abs - g.abs| := by
    unfold Double.val
    rw [hs]
    split
    · rw [← abs_neg]; congr 1; ring
    · rfl
  refine ⟨hs, ?_, ?_⟩
  · have ep : printG nd (rounded nd f) = printG nd (rounded nd g) := by
      unfold doubleTos at e
      rw [hs] at e
      exact List.append_cancel_left e
    have err : ∀ n : Nat, |unsignedVal (printG nd n) - n / 10 ^ nd| ≤ (n / 10 ^ nd) / 200000 := by
      intro n
      by_cases h0 : n = 0
      · subst h0
        simp [printG, unsignedVal, mantissaVal, digitsVal, exponentVal]
      · obtain ⟨m, x, hs, h1, h2, h3, h4⟩ := significant_spec nd (Nat.pos_of_ne_zero h0)
        rw [printG_val h0 hs h1]; exact h4
    have a1 := abs_le.1 (err (rounded nd f))
    have a2 := abs_le.1 (err (rounded nd g))
    rw [ep] at a1
    have unit : ∀ {x : Rat} {n : Nat}, RoundsTo nd x n → (n : Rat) / 10 ^ nd - 1 / 10 ^ nd / 2 ≤ x ∧ x ≤ (n : Rat) / 10 ^ nd + 1 / 10 ^ nd / 2 := by
      intro x n h
      obtain ⟨h1, h2⟩ := h
      constructor
      · have : (n : Rat) / 10 ^ nd - 1 / 10 ^ nd / 2 = (n - 1 / 2) / 10 ^ nd := by ring
        rw [this, div_le_iff₀ hp]; exact h1
      · have : (n : Rat) / 10 ^ nd + 1 / 10 ^ nd / 2 = (n + 1 / 2) / 10 ^ nd := by ring
        rw [this, le_div_iff₀ hp]; exact h2.le
    have u1 := unit rf
    have u2 := unit rg
    rw [hval, abs_le]
    constructor <;> linarith
  · intro sf sg
    obtain ⟨_, n, ⟨h1, h2⟩, ⟨h3, h4⟩⟩ := (C81_same_partial nd sf sg).1 e
    rw [hval, lt_div_iff₀ hp, ← abs_of_pos hp, ← abs_mul, abs_lt, sub_mul]
    constructor <;> linarith

example : doubleTos 4 ⟨false, 1000001 / 10000⟩ = doubleTos 4 ⟨false, 1000004 / 10000⟩ := by decide +kernel

/-- C81 (refuted, zero): a coordinate that is zero and one that is negative zero (Gaussian prints `-0.000000`) have different texts,
though they are equal; and so do tiny numbers of different sign. -/
theorem C81_refuted_zero (nd : Nat) {x y : Rat} (hx : 0 ≤ x) (hy : 0 ≤ y) :
    doubleTos nd ⟨false, x⟩ ≠ doubleTos nd ⟨true, y⟩ ∧ (⟨false, 0⟩ : Double).val = (⟨true, 0⟩ : Double).val := by
  refine ⟨fun e => ?_, by simp [Double.val]⟩
  have := (C81_close nd hx hy e).1
  cases this

/-- C81 (refuted, large): from 100 on the fourth decimal is not printed: 100.0001 and 100.0004 have the same text. -/
theorem C81_refuted_large :
    doubleTos 4 ⟨false, 1000001 / 10000⟩ = doubleTos 4 ⟨false, 1000004 / 10000⟩ ∧
    ¬ Agree 4 ⟨false, 1000001 / 10000⟩ ⟨false, 1000004 / 10000⟩ := by
  refine ⟨by decide +kernel, ?_⟩
  rintro ⟨_, n, h1, h2⟩
  have e1 := h1.unique (n' := 1000001) ⟨by norm_num, by norm_num⟩
  have e2 := h2.unique (n' := 1000004) ⟨by norm_num, by norm_num⟩
  omega

open Mat in
/-- C81 (columns): `matchCol(mat, nd)` pairs a column with the last column whose entries agree with its own to `nd` decimals, and with
-1 if there is none. Missing from the full property: entries of 10^6 units and more, and zeros of different sign. -/
theorem C81_matchCol_partial (nd : Nat) {m mat : Mat Double} (h : WF m) (h' : WF mat) (hs : m.shel = 1) (hs' : mat.shel = 1)
    (hr : mat.rows = m.rows) (hm : ∀ j i v, m.getElem2 j i = .ok v → Small nd v) (hm' : ∀ j i v, mat.getElem2 j i = .ok v → Small nd v) :
    ∃ v, matchCol (doubleTos nd) m mat = .ok v ∧ (v.length : Int) = m.cols ∧
      ∀ (t : Nat) (ht : t < v.length),
        let agrees (ii : Int) := ∀ j, 1 ≤ j → j ≤ m.rows →
          ∃ a b, m.getElem2 j (t + 1) = .ok a ∧ mat.getElem2 j ii = .ok b ∧ Agree nd a b
        (v[t] = -1 ∧ (∀ ii, 1 ≤ ii → ii ≤ mat.cols → ¬ agrees ii)) ∨
        (1 ≤ v[t] ∧ v[t] ≤ mat.cols ∧ agrees v[t] ∧ ∀ ii, v[t] < ii → ii ≤ mat.cols → ¬ agrees ii) := by
  obtain ⟨v, hv, hl, hall⟩ := C22_matchCol (doubleTos nd) h h' hs hs' hr
  refine ⟨v, hv, hl, fun t ht => ?_⟩
  have key : ∀ ii, ColPrintsLike (doubleTos nd) m mat (t + 1) ii ↔ ∀ j, 1 ≤ j → j ≤ m.rows →
      ∃ a b, m.getElem2 j (t + 1) = .ok a ∧ mat.getElem2 j ii = .ok b ∧ Agree nd a b := by
    intro ii
    unfold ColPrintsLike
    constructor
    · intro hh j h1 h2
      obtain ⟨a, b, ha, hb, e⟩ := hh j h1 h2
      exact ⟨a, b, ha, hb, (C81_same_partial nd (hm _ _ _ ha) (hm' _ _ _ hb)).1 e⟩
    · intro hh j h1 h2
      obtain ⟨a, b, ha, hb, e⟩ := hh j h1 h2
      exact ⟨a, b, ha, hb, (C81_same_partial nd (hm _ _ _ ha) (hm' _ _ _ hb)).2 e⟩
  have := hall t ht
  simp only [key] at this
  exact this

/-- One atom, as in a monomer's log and as in the dimer's log. -/
def atom1 : Mat Double := ⟨3, 1, 1, [some ⟨false, 0⟩, some ⟨false, 3 / 2⟩, some ⟨true, 1 / 3⟩]⟩
def atom2 : Mat Double := ⟨3, 2, 1, [some ⟨false, 7⟩, some ⟨false, 0⟩, some ⟨false, 8⟩, some ⟨false, 3 / 2⟩, some ⟨true, 9⟩, some ⟨true, 33333 / 100000⟩]⟩
def atom3 : Mat Double := ⟨3, 1, 1, [some ⟨true, 0⟩, some ⟨false, 3 / 2⟩, some ⟨true, 1 / 3⟩]⟩

open Mat in
example : WF atom1 ∧ WF atom2 ∧ matchCol (doubleTos 4) atom1 atom2 = .ok [2] := by decide +kernel

open Mat in
/-- C81 (refuted, an atom): the same atom with one coordinate printed as `-0.000000` in one of the two files is not matched. -/
theorem C81_refuted_atom : matchCol (doubleTos 4) atom1 atom3 = .ok [-1] ∧
    ∀ j, 1 ≤ j → j ≤ 3 → ∃ a b, atom1.getElem2 j 1 = .ok a ∧ atom3.getElem2 j 1 = .ok b ∧ a.val = b.val := by
  refine ⟨by decide +kernel, fun j h1 h2 => ?_⟩
  have : j = 1 ∨ j = 2 ∨ j = 3 := by omega
  rcases this with rfl | rfl | rfl
  · exact ⟨_, _, rfl, rfl, by simp [Double.val]⟩
  · exact ⟨_, _, rfl, rfl, rfl⟩
  · exact ⟨_, _, rfl, rfl, rfl⟩

end Tos
end Verif
