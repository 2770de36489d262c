import Verif.Ints
import Verif.Spec.Ints
import Verif.MatrixLemmas
import Mathlib.Tactic.Ring
import Mathlib.Tactic.Linarith
/-
Where checked and mathematical integers agree.
-/
namespace Verif.Ints
variable {α : Type}

theorem fit_ok {n : Int} (h1 : -2147483648 ≤ n) (h2 : n ≤ 2147483647) : fit n = .ok n := if_pos ⟨h1, h2⟩

theorem fit_ub {n : Int} (h : 2147483647 < n) : fit n = .ub := if_neg (by omega)

theorem index_ok {R C S r c s : Int} (hr : 1 ≤ r ∧ r ≤ R) (hc : 1 ≤ c ∧ c ≤ C) (hs : 1 ≤ s ∧ s ≤ S) (h : R * C * S ≤ 2147483647) :
    index C S r c s = .ok (Mat.idx C S r c s) := by
  have hC : 1 ≤ C := by omega
  have hS : 1 ≤ S := by omega
  have a1 : 0 ≤ (r - 1) * C := Int.mul_nonneg (by omega) (by omega)
  have a2 : 0 ≤ (r - 1) * C * S := Int.mul_nonneg a1 (by omega)
  have a3 : (r - 1) * C ≤ (r - 1) * C * S := by nlinarith
  have a4 : r - 1 ≤ (r - 1) * C := by nlinarith
  have b1 : 0 ≤ (c - 1) * S := Int.mul_nonneg (by omega) (by omega)
  have b2 : (c - 1) * S + S ≤ C * S := by nlinarith
  have b3 : c - 1 ≤ (c - 1) * S := by nlinarith
  have b0 : 0 ≤ C * S := Int.mul_nonneg (by omega) (by omega)
  have t1 : (r - 1) * C * S + C * S ≤ R * C * S := by
    have : (r - 1) * C * S + C * S = r * (C * S) := by ring
    have e2 : R * C * S = R * (C * S) := by ring
    rw [this, e2]
    exact Int.mul_le_mul_of_nonneg_right hr.2 b0
  unfold index sub mul add
  rw [fit_ok (by omega) (by omega)]
  simp only [Res.ok_bind]
  rw [fit_ok (by omega) (by omega)]
  simp only [Res.ok_bind]
  rw [fit_ok (by omega) (by omega)]
  simp only [Res.ok_bind]
  rw [fit_ok (by omega) (by omega)]
  simp only [Res.ok_bind]
  rw [fit_ok (by omega) (by omega)]
  simp only [Res.ok_bind]
  rw [fit_ok (by omega) (by omega)]
  simp only [Res.ok_bind]
  rw [fit_ok (by omega) (by omega)]
  simp only [Res.ok_bind]
  rw [fit_ok (by omega) (by omega)]
  rfl

/-- Binds of equal computations. -/
theorem bind_eq {β γ : Type} {x y : Res β} {f g : β → Res γ} (h : x = y) (hf : ∀ a, y = .ok a → f a = g a) : (x >>= f) = (y >>= g) := by
  subst h
  cases x with
  | ok a => exact hf a rfl
  | throw _ => rfl
  | exit _ => rfl
  | ub => rfl
  | diverge => rfl

theorem forRange_post {σ : Type} {g : σ → Int → Res σ} (P : σ → Prop) {lo hi : Int} {s s' : σ} (h0 : P s)
    (step : ∀ i s s', P s → g s i = .ok s' → P s') (h : forRange lo hi s g = .ok s') : P s' := by
  unfold forRange at h
  revert s
  generalize irange lo hi = l
  induction l with
  | nil => intro s h0 h; cases h; exact h0
  | cons i l ih =>
    intro s h0 h
    rw [List.foldlM_cons] at h
    obtain ⟨s1, e1, h⟩ := Res.bind_eq_ok.1 h
    exact ih (step i s s1 h0 e1) h

theorem loop_eq {σ : Type} {f g : σ → Int → Res σ} (P : σ → Prop) {lo hi : Int} {s : σ} (hlo : -2147483648 ≤ lo) (hhi : hi < 2147483647) (h0 : P s)
    (step : ∀ i s, lo ≤ i → i ≤ hi → P s → f s i = g s i) (post : ∀ i s s', P s → g s i = .ok s' → P s') :
    loop lo hi s f = forRange lo hi s g := by
  have key : forRange lo hi s f = forRange lo hi s g := by
    unfold forRange
    have hm : ∀ i ∈ irange lo hi, lo ≤ i ∧ i ≤ hi := fun i hi => mem_irange.1 hi
    revert s hm
    generalize irange lo hi = l
    induction l with
    | nil => intros; rfl
    | cons i l ih =>
      intro s h0 hm
      rw [List.foldlM_cons, List.foldlM_cons]
      have := hm i (by simp)
      refine bind_eq (step i s this.1 this.2 h0) fun s' e => ?_
      exact ih (post i s s' h0 e) fun j hj => hm j (by simp [hj])
  unfold loop
  rw [key]
  by_cases h : lo ≤ hi
  · simp only [if_pos h]
    rw [fit_ok (by omega) (by omega)]
    simp
  · simp only [if_neg h]
    simp

/-- The dimensions of a matrix. -/
def Dims (r c s : Int) (m : Mat α) : Prop := m.rows = r ∧ m.cols = c ∧ m.shel = s

theorem Dims.set2 {r c s : Int} {m m' : Mat α} (h : Dims r c s m) {v : α} {i j : Int} (e : m.setElem2 v i j = .ok m') : Dims r c s m' := by
  unfold Mat.setElem2 at e
  repeat' split at e
  all_goals first | cases e | skip
  obtain ⟨b, -, e⟩ := Res.bind_eq_ok.1 e
  cases e; exact h

theorem Dims.set3 {r c s : Int} {m m' : Mat α} (h : Dims r c s m) {v : α} {i j k : Int} (e : m.setElem3 v i j k = .ok m') : Dims r c s m' := by
  unfold Mat.setElem3 at e
  repeat' split at e
  all_goals first | cases e | skip
  obtain ⟨b, -, e⟩ := Res.bind_eq_ok.1 e
  cases e; exact h

section
variable {m : Mat α}

theorem getElem3_eq (h : IntSized m) (r c s : Int) : getElem3 m r c s = m.getElem3 r c s := by
  unfold getElem3 Mat.getElem3
  split
  · rfl
  split
  · rfl
  split
  · rfl
  split
  · rfl
  split
  · rfl
  split
  · rfl
  rw [index_ok (R := m.rows) (by omega) (by omega) (by omega) (by have := h.2.2.2; omega)]
  rfl

theorem getElem2_eq (h : IntSized m) (r c : Int) : getElem2 m r c = m.getElem2 r c := by
  unfold getElem2 Mat.getElem2
  split
  · rfl
  split
  · rfl
  split
  · rfl
  split
  · rfl
  rw [index_ok (R := m.rows) (by omega) (by omega) (by have := h.2.2.1; omega) (by have := h.2.2.2; omega)]
  rfl

theorem getElem1_eq (h : IntSized m) (r : Int) : getElem1 m r = m.getElem1 r := by
  unfold getElem1 Mat.getElem1
  split
  · rfl
  split
  · rfl
  rw [index_ok (R := m.rows) (by omega) (by have := h.2.1; omega) (by have := h.2.2.1; omega) (by have := h.2.2.2; omega)]
  rfl

theorem setElem3_eq (h : IntSized m) (v : α) (r c s : Int) : setElem3 m v r c s = m.setElem3 v r c s := by
  unfold setElem3 Mat.setElem3
  split
  · rfl
  split
  · rfl
  split
  · rfl
  split
  · rfl
  split
  · rfl
  split
  · rfl
  rw [index_ok (R := m.rows) (by omega) (by omega) (by omega) (by have := h.2.2.2; omega)]
  rfl

theorem setElem2_eq (h : IntSized m) (v : α) (r c : Int) : setElem2 m v r c = m.setElem2 v r c := by
  unfold setElem2 Mat.setElem2
  split
  · rfl
  split
  · rfl
  split
  · rfl
  split
  · rfl
  rw [index_ok (R := m.rows) (by omega) (by omega) (by have := h.2.2.1; omega) (by have := h.2.2.2; omega)]
  rfl

theorem setElem1_eq (h : IntSized m) (v : α) (r : Int) : setElem1 m v r = m.setElem1 v r := by
  unfold setElem1 Mat.setElem1
  split
  · rfl
  split
  · rfl
  rw [index_ok (R := m.rows) (by omega) (by have := h.2.1; omega) (by have := h.2.2.1; omega) (by have := h.2.2.2; omega)]
  rfl

end

/-- Each dimension is no larger than their product. -/
theorem dims_le {r c s : Int} (hr : 1 ≤ r) (hc : 1 ≤ c) (hs : 1 ≤ s) : r ≤ r * c * s ∧ c ≤ r * c * s ∧ s ≤ r * c * s ∧ r * c ≤ r * c * s ∧ 1 ≤ r * c := by
  have h1 : 1 ≤ r * c := by nlinarith
  have h2 : r ≤ r * c := by nlinarith
  have h3 : c ≤ r * c := by nlinarith
  have h4 : r * c ≤ r * c * s := by nlinarith
  have h5 : s ≤ r * c * s := by nlinarith
  exact ⟨by omega, by omega, h5, h4, h1⟩

theorem Dims.sized {r c s : Int} {m : Mat α} (h : Dims r c s m) (hr : 1 ≤ r) (hc : 1 ≤ c) (hs : 1 ≤ s) (hp : r * c * s < 2147483647) :
    IntSized m := by
  obtain ⟨rfl, rfl, rfl⟩ := h
  exact ⟨hr, hc, hs, hp⟩

theorem IntSized.le {m : Mat α} (h : IntSized m) : m.rows < 2147483647 ∧ m.cols < 2147483647 ∧ m.shel < 2147483647 := by
  obtain ⟨h1, h2, h3, h4⟩ := h
  have := dims_le h1 h2 h3
  omega

section
variable [Zero α]

theorem mk3_eq {r c s : Int} (h : 1 ≤ r → 1 ≤ c → 1 ≤ s → r * c * s < 2147483647) : (mk3 r c s : Res (Mat α)) = Mat.mk3 r c s := by
  unfold mk3 Mat.mk3
  split
  · rfl
  split
  · rfl
  split
  · rfl
  have hr : 1 ≤ r := by omega
  have hc : 1 ≤ c := by omega
  have hs : 1 ≤ s := by omega
  have h := h hr hc hs
  have d := dims_le hr hc hs
  unfold mul
  rw [fit_ok (by omega) (by omega)]
  simp only [Res.ok_bind]
  rw [fit_ok (by omega) (by omega)]
  simp only [Res.ok_bind]
  refine bind_eq ?_ fun _ _ => rfl
  refine loop_eq (fun _ => True) (by omega) (by omega) trivial (fun i b i1 i2 _ => ?_) (fun _ _ _ _ _ => trivial)
  refine loop_eq (fun _ => True) (by omega) (by omega) trivial (fun j b j1 j2 _ => ?_) (fun _ _ _ _ _ => trivial)
  refine loop_eq (fun _ => True) (by omega) (by omega) trivial (fun k b k1 k2 _ => ?_) (fun _ _ _ _ _ => trivial)
  rw [index_ok (R := r) ⟨i1, i2⟩ ⟨j1, j2⟩ ⟨k1, k2⟩ (by omega)]
  rfl

theorem mk2_eq {r c : Int} (h : 1 ≤ r → 1 ≤ c → r * c < 2147483647) : (mk2 r c : Res (Mat α)) = Mat.mk2 r c := by
  unfold mk2 Mat.mk2
  split
  · rfl
  split
  · rfl
  have hr : 1 ≤ r := by omega
  have hc : 1 ≤ c := by omega
  have h := h hr hc
  have d := dims_le hr hc (Int.le_refl 1)
  unfold mul add sub
  rw [fit_ok (by omega) (by omega)]
  simp only [Res.ok_bind]
  refine bind_eq ?_ fun _ _ => rfl
  refine loop_eq (fun _ => True) (by omega) (by omega) trivial (fun i b i1 i2 _ => ?_) (fun _ _ _ _ _ => trivial)
  refine loop_eq (fun _ => True) (by omega) (by omega) trivial (fun j b j1 j2 _ => ?_) (fun _ _ _ _ _ => trivial)
  have a1 : 0 ≤ (i - 1) * c := Int.mul_nonneg (by omega) (by omega)
  have a2 : (i - 1) * c + c ≤ r * c := by nlinarith
  rw [fit_ok (by omega) (by omega)]
  simp only [Res.ok_bind]
  rw [fit_ok (by omega) (by omega)]
  simp only [Res.ok_bind]
  rw [fit_ok (by omega) (by omega)]
  simp only [Res.ok_bind]
  rw [fit_ok (by omega) (by omega)]
  rfl

theorem mk2_dims {r c : Int} {m : Mat α} (h : Mat.mk2 r c = .ok m) : 1 ≤ r ∧ 1 ≤ c ∧ Dims r c 1 m := by
  unfold Mat.mk2 at h
  split at h
  · cases h
  split at h
  · cases h
  obtain ⟨b, -, h⟩ := Res.bind_eq_ok.1 h
  cases h
  exact ⟨by omega, by omega, rfl, rfl, rfl⟩

theorem mk3_dims {r c s : Int} {m : Mat α} (h : Mat.mk3 r c s = .ok m) : 1 ≤ r ∧ 1 ≤ c ∧ 1 ≤ s ∧ Dims r c s m := by
  unfold Mat.mk3 at h
  split at h
  · cases h
  split at h
  · cases h
  split at h
  · cases h
  obtain ⟨b, -, h⟩ := Res.bind_eq_ok.1 h
  cases h
  exact ⟨by omega, by omega, by omega, rfl, rfl, rfl⟩

theorem resize_eq {m : Mat α} (hm : IntSized m) {r c : Int} (h : 1 ≤ r → 1 ≤ c → r * c < 2147483647) : resize m r c = m.resize r c := by
  unfold resize Mat.resize
  split
  · rfl
  split
  · rfl
  have hr : 1 ≤ r := by omega
  have hc : 1 ≤ c := by omega
  have h := h hr hc
  have d := dims_le hr hc (Int.le_refl 1)
  unfold mul
  rw [fit_ok (by omega) (by omega)]
  simp only [Res.ok_bind]
  have hpos : ∀ i j, 1 ≤ i → i ≤ r → 1 ≤ j → j ≤ c → index c 1 i j 1 = .ok ((i - 1) * c * 1 + (j - 1) * 1 + 1 - 1) :=
    fun i j i1 i2 j1 j2 => index_ok (R := r) ⟨i1, i2⟩ ⟨j1, j2⟩ ⟨by omega, by omega⟩ (by omega)
  have hidx : ∀ i j, 1 ≤ i → i ≤ m.rows → 1 ≤ j → j ≤ m.cols → index m.cols m.shel i j 1 = .ok (m.index i j 1) :=
    fun i j i1 i2 j1 j2 => index_ok (R := m.rows) ⟨i1, i2⟩ ⟨j1, j2⟩ ⟨by omega, hm.2.2.1⟩ (by have := hm.2.2.2; omega)
  split
  · refine bind_eq ?_ fun _ _ => rfl
    refine loop_eq (fun _ => True) (by omega) (by omega) trivial (fun i b i1 i2 _ => ?_) (fun _ _ _ _ _ => trivial)
    split
    · refine loop_eq (fun _ => True) (by omega) (by omega) trivial (fun j b j1 j2 _ => ?_) (fun _ _ _ _ _ => trivial)
      rw [hpos i j i1 i2 j1 j2, hidx i j i1 (by omega) j1 (by omega)]
      rfl
    · refine loop_eq (fun _ => True) (by omega) (by omega) trivial (fun j b j1 j2 _ => ?_) (fun _ _ _ _ _ => trivial)
      rw [hpos i j i1 i2 j1 j2]
      split
      · rw [hidx i j i1 (by omega) j1 (by omega)]; rfl
      · rfl
  · refine bind_eq ?_ fun _ _ => rfl
    refine loop_eq (fun _ => True) (by omega) (by omega) trivial (fun i b i1 i2 _ => ?_) (fun _ _ _ _ _ => trivial)
    split
    · refine loop_eq (fun _ => True) (by omega) (by omega) trivial (fun j b j1 j2 _ => ?_) (fun _ _ _ _ _ => trivial)
      rw [hpos i j i1 i2 j1 j2]
      split
      · rw [hidx i j i1 (by omega) j1 (by omega)]; rfl
      · rfl
    · refine loop_eq (fun _ => True) (by omega) (by omega) trivial (fun j b j1 j2 _ => ?_) (fun _ _ _ _ _ => trivial)
      rw [hpos i j i1 i2 j1 j2]
      split
      · rw [hidx i j i1 (by omega) j1 (by omega)]; rfl
      · rfl

theorem resize_dims {m m' : Mat α} {r c : Int} (h : m.resize r c = .ok m') : 1 ≤ r ∧ 1 ≤ c ∧ Dims r c 1 m' := by
  unfold Mat.resize at h
  split at h
  · cases h
  split at h
  · cases h
  dsimp only at h
  refine ⟨by omega, by omega, ?_⟩
  split at h <;> (obtain ⟨b, -, h⟩ := Res.bind_eq_ok.1 h; cases h; exact ⟨rfl, rfl, rfl⟩)

theorem assign_eq {a m : Mat α} (ha : IntSized a) (hm : IntSized m) : assign a m = a.assign m := by
  unfold assign Mat.assign
  have l := hm.le
  have d := dims_le hm.1 hm.2.1 hm.2.2.1
  have hlt := hm.2.2.2
  have hlt2 : m.rows * m.cols * 1 < 2147483647 := by omega
  refine bind_eq (resize_eq ha fun _ _ => by omega) fun t ht => ?_
  obtain ⟨-, -, hd⟩ := resize_dims ht
  refine loop_eq (Dims m.rows m.cols 1) (by omega) (by omega) hd (fun i t i1 i2 hd => ?_) (fun i t t' hd e => ?_)
  · refine loop_eq (Dims m.rows m.cols 1) (by omega) (by omega) hd (fun j t j1 j2 hd => ?_) (fun j t t' hd e => ?_)
    · refine bind_eq (getElem2_eq hm i j) fun v _ => ?_
      exact setElem2_eq (hd.sized hm.1 hm.2.1 (by omega) hlt2) v i j
    · obtain ⟨v, -, e⟩ := Res.bind_eq_ok.1 e
      exact hd.set2 e
  · refine forRange_post (Dims m.rows m.cols 1) hd (fun j t t' hd e => ?_) e
    obtain ⟨v, -, e⟩ := Res.bind_eq_ok.1 e
    exact hd.set2 e

theorem assign_dims {a m t : Mat α} (h : a.assign m = .ok t) : Dims m.rows m.cols 1 t := by
  unfold Mat.assign at h
  obtain ⟨t0, h0, h⟩ := Res.bind_eq_ok.1 h
  obtain ⟨-, -, hd⟩ := resize_dims h0
  refine forRange_post (Dims m.rows m.cols 1) hd (fun i t t' hd e => ?_) h
  refine forRange_post (Dims m.rows m.cols 1) hd (fun j t t' hd e => ?_) e
  obtain ⟨v, -, e⟩ := Res.bind_eq_ok.1 e
  exact hd.set2 e

theorem invert_eq {m : Mat α} (hm : IntSized m) : invert m = m.invert := by
  unfold invert Mat.invert
  split
  · rfl
  have l := hm.le
  have d := dims_le hm.1 hm.2.1 hm.2.2.1
  have hlt := hm.2.2.2
  have hlt2 : m.cols * m.rows * 1 < 2147483647 := by
    have : m.cols * m.rows = m.rows * m.cols := Int.mul_comm _ _
    omega
  refine bind_eq (mk2_eq fun _ _ => by omega) fun t ht => ?_
  obtain ⟨-, -, hd⟩ := mk2_dims ht
  refine loop_eq (Dims m.cols m.rows 1) (by omega) (by omega) hd (fun i t i1 i2 hd => ?_) (fun i t t' hd e => ?_)
  · refine loop_eq (Dims m.cols m.rows 1) (by omega) (by omega) hd (fun j t j1 j2 hd => ?_) (fun j t t' hd e => ?_)
    · refine bind_eq (getElem2_eq hm i j) fun v _ => ?_
      exact setElem2_eq (hd.sized hm.2.1 hm.1 (by omega) hlt2) v j i
    · obtain ⟨v, -, e⟩ := Res.bind_eq_ok.1 e
      exact hd.set2 e
  · refine forRange_post (Dims m.cols m.rows 1) hd (fun j t t' hd e => ?_) e
    obtain ⟨v, -, e⟩ := Res.bind_eq_ok.1 e
    exact hd.set2 e

theorem invert_dims {m t : Mat α} (h : m.invert = .ok t) : Dims m.cols m.rows 1 t := by
  unfold Mat.invert at h
  split at h
  · cases h
  obtain ⟨t0, h0, h⟩ := Res.bind_eq_ok.1 h
  obtain ⟨-, -, hd⟩ := mk2_dims h0
  refine forRange_post (Dims m.cols m.rows 1) hd (fun i t t' hd e => ?_) h
  refine forRange_post (Dims m.cols m.rows 1) hd (fun j t t' hd e => ?_) e
  obtain ⟨v, -, e⟩ := Res.bind_eq_ok.1 e
  exact hd.set2 e

theorem product_eq [Add α] [Mul α] {m1 m2 : Mat α} (h1 : IntSized m1) (h2 : IntSized m2) (h : m1.rows * m2.cols < 2147483647) :
    product m1 m2 = m1.mul m2 := by
  unfold product Mat.mul
  split
  · rfl
  split
  · rfl
  have l1 := h1.le
  have l2 := h2.le
  refine bind_eq (mk2_eq fun _ _ => h) fun t ht => ?_
  obtain ⟨-, -, hd⟩ := mk2_dims ht
  refine loop_eq (Dims m1.rows m2.cols 1) (by omega) (by omega) hd (fun i t i1 i2 hd => ?_) (fun i t t' hd e => ?_)
  · refine loop_eq (Dims m1.rows m2.cols 1) (by omega) (by omega) hd (fun j t j1 j2 hd => ?_) (fun j t t' hd e => ?_)
    · refine bind_eq ?_ fun v _ => ?_
      · refine loop_eq (fun _ => True) (by omega) (by omega) trivial (fun k s k1 k2 _ => ?_) (fun _ _ _ _ _ => trivial)
        exact bind_eq (getElem2_eq h1 i k) fun a _ => bind_eq (getElem2_eq h2 k j) fun b _ => rfl
      · exact setElem2_eq (hd.sized h1.1 h2.2.1 (by omega) (by omega)) v i j
    · obtain ⟨v, -, e⟩ := Res.bind_eq_ok.1 e
      exact hd.set2 e
  · refine forRange_post (Dims m1.rows m2.cols 1) hd (fun j t t' hd e => ?_) e
    obtain ⟨v, -, e⟩ := Res.bind_eq_ok.1 e
    exact hd.set2 e

theorem product_dims [Add α] [Mul α] {m1 m2 t : Mat α} (h : m1.mul m2 = .ok t) : Dims m1.rows m2.cols 1 t := by
  unfold Mat.mul at h
  split at h
  · cases h
  split at h
  · cases h
  obtain ⟨t0, h0, h⟩ := Res.bind_eq_ok.1 h
  obtain ⟨-, -, hd⟩ := mk2_dims h0
  refine forRange_post (Dims m1.rows m2.cols 1) hd (fun i t t' hd e => ?_) h
  refine forRange_post (Dims m1.rows m2.cols 1) hd (fun j t t' hd e => ?_) e
  obtain ⟨v, -, e⟩ := Res.bind_eq_ok.1 e
  exact hd.set2 e

theorem diag_eq {m : Mat α} (hm : IntSized m) (h : m.rows * m.rows < 2147483647 ∧ m.cols * m.cols < 2147483647) : diag m = m.diag := by
  unfold diag Mat.diag
  split
  · rfl
  split
  · rfl
  have l := hm.le
  split
  · refine bind_eq (mk2_eq fun _ _ => h.2) fun t ht => ?_
    obtain ⟨-, -, hd⟩ := mk2_dims ht
    refine loop_eq (Dims m.cols m.cols 1) (by omega) (by omega) hd (fun i t i1 i2 hd => ?_) (fun i t t' hd e => ?_)
    · exact bind_eq (getElem2_eq hm 1 i) fun v _ => setElem2_eq (hd.sized hm.2.1 hm.2.1 (by omega) (by omega)) v i i
    · obtain ⟨v, -, e⟩ := Res.bind_eq_ok.1 e
      exact hd.set2 e
  · refine bind_eq (mk2_eq fun _ _ => h.1) fun t ht => ?_
    obtain ⟨-, -, hd⟩ := mk2_dims ht
    refine loop_eq (Dims m.rows m.rows 1) (by omega) (by omega) hd (fun i t i1 i2 hd => ?_) (fun i t t' hd e => ?_)
    · exact bind_eq (getElem2_eq hm i 1) fun v _ => setElem2_eq (hd.sized hm.1 hm.1 (by omega) (by omega)) v i i
    · obtain ⟨v, -, e⟩ := Res.bind_eq_ok.1 e
      exact hd.set2 e

theorem diag_dims {m t : Mat α} (h : m.diag = .ok t) : ∃ n, (n = m.rows ∨ n = m.cols) ∧ Dims n n 1 t := by
  unfold Mat.diag at h
  split at h
  · cases h
  split at h
  · cases h
  split at h
  · obtain ⟨t0, h0, h⟩ := Res.bind_eq_ok.1 h
    obtain ⟨-, -, hd⟩ := mk2_dims h0
    refine ⟨m.cols, .inr rfl, forRange_post (Dims m.cols m.cols 1) hd (fun i t t' hd e => ?_) h⟩
    obtain ⟨v, -, e⟩ := Res.bind_eq_ok.1 e
    exact hd.set2 e
  · obtain ⟨t0, h0, h⟩ := Res.bind_eq_ok.1 h
    obtain ⟨-, -, hd⟩ := mk2_dims h0
    refine ⟨m.rows, .inl rfl, forRange_post (Dims m.rows m.rows 1) hd (fun i t t' hd e => ?_) h⟩
    obtain ⟨v, -, e⟩ := Res.bind_eq_ok.1 e
    exact hd.set2 e

theorem concatRows_eq {m1 m2 : Mat α} (h1 : IntSized m1) (h2 : IntSized m2) (h : (m1.rows + m2.rows) * m1.cols * m1.shel < 2147483647) :
    concatRows m1 m2 = m1.concatRows m2 := by
  unfold concatRows Mat.concatRows
  split
  · rfl
  rename_i hc
  split
  · rfl
  rename_i hs
  have l1 := h1.le
  have l2 := h2.le
  have p1 := h1.1
  have p2 := h2.1
  have d := dims_le (r := m1.rows + m2.rows) (by omega) h1.2.1 h1.2.2.1
  unfold add
  rw [fit_ok (by omega) (by omega)]
  simp only [Res.ok_bind]
  refine bind_eq (mk3_eq fun _ _ _ => h) fun t ht => ?_
  obtain ⟨-, -, -, hd⟩ := mk3_dims ht
  have sz : ∀ {t : Mat α}, Dims (m1.rows + m2.rows) m1.cols m1.shel t → IntSized t := fun hd => hd.sized (by omega) h1.2.1 h1.2.2.1 h
  have post : ∀ {f : Int → Int → Int → Res α} {p : Int → Int} {b c : Int} (i : Int) (t t' : Mat α), Dims (m1.rows + m2.rows) m1.cols m1.shel t →
      (forRange 1 b t fun t j => forRange 1 c t fun t k => f i j k >>= fun v => t.setElem3 v (p i) j k) = .ok t' →
      Dims (m1.rows + m2.rows) m1.cols m1.shel t' := by
    intro f p b c i t t' hd e
    refine forRange_post _ hd (fun j t t' hd e => ?_) e
    refine forRange_post _ hd (fun k t t' hd e => ?_) e
    obtain ⟨v, -, e⟩ := Res.bind_eq_ok.1 e
    exact hd.set3 e
  refine bind_eq ?_ fun t1 ht1 => ?_
  · refine loop_eq _ (by omega) (by omega) hd (fun i t i1 i2 hd => ?_) (fun i t t' hd e => post (p := fun i => i) i t t' hd e)
    refine loop_eq _ (by omega) (by omega) hd (fun j t j1 j2 hd => ?_) (fun j t t' hd e => ?_)
    · refine loop_eq _ (by omega) (by omega) hd (fun k t k1 k2 hd => ?_) (fun k t t' hd e => ?_)
      · exact bind_eq (getElem3_eq h1 i j k) fun v _ => setElem3_eq (sz hd) v i j k
      · obtain ⟨v, -, e⟩ := Res.bind_eq_ok.1 e
        exact hd.set3 e
    · refine forRange_post _ hd (fun k t t' hd e => ?_) e
      obtain ⟨v, -, e⟩ := Res.bind_eq_ok.1 e
      exact hd.set3 e
  · have hd1 : Dims (m1.rows + m2.rows) m1.cols m1.shel t1 :=
      forRange_post _ hd (fun i t t' hd e => post (p := fun i => i) i t t' hd e) ht1
    refine loop_eq _ (by omega) (by omega) hd1 (fun i t i1 i2 hd => ?_) (fun i t t' hd e => post (p := fun i => i + m1.rows) i t t' hd e)
    refine loop_eq _ (by omega) (by omega) hd (fun j t j1 j2 hd => ?_) (fun j t t' hd e => ?_)
    · refine loop_eq _ (by omega) (by omega) hd (fun k t k1 k2 hd => ?_) (fun k t t' hd e => ?_)
      · refine bind_eq (getElem3_eq h2 i j k) fun v _ => ?_
        rw [fit_ok (by omega) (by omega)]
        exact setElem3_eq (sz hd) v (i + m1.rows) j k
      · obtain ⟨v, -, e⟩ := Res.bind_eq_ok.1 e
        exact hd.set3 e
    · refine forRange_post _ hd (fun k t t' hd e => ?_) e
      obtain ⟨v, -, e⟩ := Res.bind_eq_ok.1 e
      exact hd.set3 e

theorem default_dims {t : Mat α} (h : Mat.default = .ok t) : Dims 1 1 1 t := by
  unfold Mat.default at h
  obtain ⟨b, -, h⟩ := Res.bind_eq_ok.1 h
  cases h; exact ⟨rfl, rfl, rfl⟩

theorem concatRows_dims {m1 m2 t : Mat α} (h : m1.concatRows m2 = .ok t) :
    Dims 1 1 1 t ∨ Dims (m1.rows + m2.rows) m1.cols m1.shel t := by
  unfold Mat.concatRows at h
  split at h
  · exact .inl (default_dims h)
  split at h
  · exact .inl (default_dims h)
  right
  obtain ⟨t0, h0, h⟩ := Res.bind_eq_ok.1 h
  obtain ⟨-, -, -, hd⟩ := mk3_dims h0
  obtain ⟨t1, h1, h⟩ := Res.bind_eq_ok.1 h
  have hd1 : Dims (m1.rows + m2.rows) m1.cols m1.shel t1 := by
    refine forRange_post _ hd (fun i t t' hd e => ?_) h1
    refine forRange_post _ hd (fun j t t' hd e => ?_) e
    refine forRange_post _ hd (fun k t t' hd e => ?_) e
    obtain ⟨v, -, e⟩ := Res.bind_eq_ok.1 e
    exact hd.set3 e
  refine forRange_post _ hd1 (fun i t t' hd e => ?_) h
  refine forRange_post _ hd (fun j t t' hd e => ?_) e
  refine forRange_post _ hd (fun k t t' hd e => ?_) e
  obtain ⟨v, -, e⟩ := Res.bind_eq_ok.1 e
  exact hd.set3 e

theorem getRow_eq {m : Mat α} (hm : IntSized m) (R : Int) : getRow m R = m.getRow R := by
  unfold getRow Mat.getRow
  split
  · rfl
  have l := hm.le
  have hlt : 1 * m.cols * m.shel < 2147483647 := by
    have h1 := hm.1
    have h4 := hm.2.2.2
    have : 0 ≤ m.cols * m.shel := Int.mul_nonneg (by have := hm.2.1; omega) (by have := hm.2.2.1; omega)
    have e : m.rows * m.cols * m.shel = m.rows * (m.cols * m.shel) := by ring
    have : m.cols * m.shel ≤ m.rows * (m.cols * m.shel) := by nlinarith
    have e' : 1 * m.cols * m.shel = m.cols * m.shel := by ring
    omega
  refine bind_eq (mk3_eq fun _ _ _ => hlt) fun t ht => ?_
  obtain ⟨-, -, -, hd⟩ := mk3_dims ht
  refine loop_eq _ (by omega) (by omega) hd (fun j t j1 j2 hd => ?_) (fun j t t' hd e => ?_)
  · refine loop_eq _ (by omega) (by omega) hd (fun k t k1 k2 hd => ?_) (fun k t t' hd e => ?_)
    · exact bind_eq (getElem3_eq hm R j k) fun v _ => setElem3_eq (hd.sized (by omega) hm.2.1 hm.2.2.1 hlt) v 1 j k
    · obtain ⟨v, -, e⟩ := Res.bind_eq_ok.1 e
      exact hd.set3 e
  · refine forRange_post _ hd (fun k t t' hd e => ?_) e
    obtain ⟨v, -, e⟩ := Res.bind_eq_ok.1 e
    exact hd.set3 e

theorem getRow_dims {m t : Mat α} {R : Int} (h : m.getRow R = .ok t) : Dims 1 m.cols m.shel t := by
  unfold Mat.getRow at h
  split at h
  · cases h
  obtain ⟨t0, h0, h⟩ := Res.bind_eq_ok.1 h
  obtain ⟨-, -, -, hd⟩ := mk3_dims h0
  refine forRange_post _ hd (fun j t t' hd e => ?_) h
  refine forRange_post _ hd (fun k t t' hd e => ?_) e
  obtain ⟨v, -, e⟩ := Res.bind_eq_ok.1 e
  exact hd.set3 e

theorem selectRow_of {m : Mat α} (hg : ∀ R, getRow m R = m.getRow R) {orbs : Int × Int} (h1 : 0 ≤ orbs.2) (h2 : orbs.2 ≤ orbs.1) (h3 : orbs.1 ≤ 2147483647)
    (kind : Str) {n : Int} (hn : -2147483648 ≤ n ∧ n ≤ 2147483647) : selectRow m orbs kind n = QC.selectRow m orbs kind n := by
  unfold selectRow QC.selectRow mul add sub
  split
  · split
    · rfl
    rw [fit_ok (by omega) (by omega)]
    simp only [Res.ok_bind]
    split
    · rfl
    rw [fit_ok (by omega) (by omega)]
    exact hg _
  split
  · split
    · rfl
    rw [fit_ok (by omega) (by omega)]
    simp only [Res.ok_bind]
    split
    · rfl
    rw [fit_ok (by omega) (by omega)]
    simp only [Res.ok_bind]
    rw [fit_ok (by omega) (by omega)]
    exact hg _
  rfl

theorem selectRow_eq {m : Mat α} (hm : IntSized m) {orbs : Int × Int} (h1 : 0 ≤ orbs.2) (h2 : orbs.2 ≤ orbs.1) (h3 : orbs.1 ≤ 2147483647)
    (kind : Str) {n : Int} (hn : -2147483648 ≤ n ∧ n ≤ 2147483647) : selectRow m orbs kind n = QC.selectRow m orbs kind n :=
  selectRow_of (getRow_eq hm) h1 h2 h3 kind hn

theorem selectRow_dims {m t : Mat α} {orbs : Int × Int} {kind : Str} {n : Int} (h : QC.selectRow m orbs kind n = .ok t) : Dims 1 m.cols m.shel t := by
  unfold QC.selectRow at h
  repeat' split at h
  all_goals first | cases h | exact getRow_dims h

theorem le_square {a b : Int} (ha : 1 ≤ a) (hb : 1 ≤ b) (ha' : a ≤ 46340) (hb' : b ≤ 46340) : a * b < 2147483647 := by
  have : a * b ≤ 46340 * 46340 := Int.mul_le_mul ha' hb' (by omega) (by omega)
  omega

theorem Within.sized {m : Mat α} (h : Within m) : IntSized m := by
  obtain ⟨a, b, c, d, e⟩ := h
  refine ⟨a, c, by omega, ?_⟩
  rw [e, Int.mul_one]
  exact le_square a c b d

theorem Within.of {m : Mat α} {r c : Int} (h : Dims r c 1 m) (hr : 1 ≤ r) (hr' : r ≤ 46340) (hc : 1 ≤ c) (hc' : c ≤ 46340) : Within m := by
  obtain ⟨rfl, rfl, e⟩ := h
  exact ⟨hr, hr', hc, hc', e⟩

theorem Within.invert {m t : Mat α} (h : Within m) (e : m.invert = .ok t) : Within t :=
  .of (invert_dims e) h.2.2.1 h.2.2.2.1 h.1 h.2.1

theorem Within.product [Add α] [Mul α] {m1 m2 t : Mat α} (h1 : Within m1) (h2 : Within m2) (e : m1.mul m2 = .ok t) : Within t :=
  .of (product_dims e) h1.1 h1.2.1 h2.2.2.1 h2.2.2.2.1

theorem Within.diag {m t : Mat α} (h : Within m) (e : m.diag = .ok t) : Within t := by
  obtain ⟨n, hn, d⟩ := diag_dims e
  obtain ⟨a, b, c, d', -⟩ := h
  rcases hn with rfl | rfl
  · exact .of d a b a b
  · exact .of d c d' c d'

theorem Within.assign {a m t : Mat α} (h : Within m) (e : a.assign m = .ok t) : Within t :=
  .of (assign_dims e) h.1 h.2.1 h.2.2.1 h.2.2.2.1

theorem Within.default {t : Mat α} (e : Mat.default = .ok t) : Within t := .of (default_dims e) (by omega) (by omega) (by omega) (by omega)

theorem Within.product_eq [Add α] [Mul α] {m1 m2 : Mat α} (h1 : Within m1) (h2 : Within m2) : Ints.product m1 m2 = m1.mul m2 :=
  Ints.product_eq h1.sized h2.sized (le_square h1.1 h2.2.2.1 h1.2.1 h2.2.2.2.1)

theorem Within.diag_eq {m : Mat α} (h : Within m) : Ints.diag m = m.diag :=
  Ints.diag_eq h.sized ⟨le_square h.1 h.1 h.2.1 h.2.1, le_square h.2.2.1 h.2.2.1 h.2.2.2.1 h.2.2.2.1⟩

theorem Within.concat_eq {m1 m2 : Mat α} (h1 : Within m1) (h2 : Within m2) (h : m1.rows + m2.rows ≤ 46340) :
    Ints.concatRows m1 m2 = m1.concatRows m2 := by
  refine concatRows_eq h1.sized h2.sized ?_
  rw [h1.2.2.2.2, Int.mul_one]
  have := h1.1
  have := h2.1
  exact le_square (by omega) h1.2.2.1 h h1.2.2.2.1

theorem Within.concat {m1 m2 t : Mat α} (h1 : Within m1) (h2 : Within m2) (h : m1.rows + m2.rows ≤ 46340) (e : m1.concatRows m2 = .ok t) : Within t := by
  have := h1.1
  have := h2.1
  rcases concatRows_dims e with d | d
  · exact .of d (by omega) (by omega) (by omega) (by omega)
  · rw [h1.2.2.2.2] at d
    exact .of d (by omega) h h1.2.2.1 h1.2.2.2.1

theorem transferReport_of [One α] [Add α] [Sub α] [Mul α] [Div α] {coef1 coef2 coefP S oe : Mat α} (cp : Bool)
    (h1 : Within coef1) (h2 : Within coef2) (hP : Within coefP) (hS : Within S) (hE : Ints.diag oe = oe.diag)
    (hE' : ∀ t, oe.diag = .ok t → Within t) (fit : cp = false → coef1.cols + coef2.cols ≤ 46340) :
    transferReport coef1 coef2 coefP S oe cp = QC.transferReport coef1 coef2 coefP S oe cp := by
  unfold transferReport QC.transferReport
  refine bind_eq (invert_eq h1.sized) fun i1 e1 => ?_
  refine bind_eq (invert_eq h2.sized) fun i2 e2 => ?_
  refine bind_eq (invert_eq hP.sized) fun iP eP => ?_
  have w1 := h1.invert e1
  have w2 := h2.invert e2
  have wP := hP.invert eP
  have d1 := invert_dims e1
  have d2 := invert_dims e2
  refine bind_eq rfl fun dA eA => bind_eq rfl fun dB eB => ?_
  have wA := Within.default eA
  have wB := Within.default eB
  have key : ∀ {f g : Mat α × Mat α → Res (QC.Report α)} {x y : Res (Mat α × Mat α)}, x = y →
      (∀ a b, y = .ok (a, b) → Within a ∧ Within b) →
      (∀ a b, Within a → Within b → f (a, b) = g (a, b)) → (x >>= f) = (y >>= g) := by
    intro f g x y e hw hf
    refine bind_eq e fun p hp => ?_
    obtain ⟨a, b⟩ := p
    have := hw a b hp
    exact hf a b this.1 this.2
  refine key ?_ ?_ ?_
  · split
    · exact bind_eq (assign_eq wA.sized w1.sized) fun _ _ => bind_eq (assign_eq wB.sized w2.sized) fun _ _ => rfl
    · rename_i hcp
      have hf := fit (by simpa using hcp)
      rw [w1.2.2.2.2, w2.2.2.2.2]
      have l1 := w1.1
      have l1' := w1.2.1
      have l2 := w2.1
      have l2' := w2.2.1
      refine bind_eq (mk3_eq fun _ _ _ => by omega) fun zA ezA => bind_eq (mk3_eq fun _ _ _ => by omega) fun zB ezB => ?_
      obtain ⟨-, -, -, dzA⟩ := mk3_dims ezA
      obtain ⟨-, -, -, dzB⟩ := mk3_dims ezB
      have wzA : Within zA := .of dzA l1 l1' (by omega) (by omega)
      have wzB : Within zB := .of dzB l2 l2' (by omega) (by omega)
      have f1 : i1.rows + zB.rows ≤ 46340 := by rw [dzB.1, d2.1, d1.1]; exact hf
      have f2 : zA.rows + i2.rows ≤ 46340 := by rw [dzA.1, d1.1, d2.1]; exact hf
      refine bind_eq (w1.concat_eq wzB f1) fun ca eca => ?_
      refine bind_eq (assign_eq wA.sized (w1.concat wzB f1 eca).sized) fun a ea => ?_
      refine bind_eq (wzA.concat_eq w2 f2) fun cb ecb => ?_
      exact bind_eq (assign_eq wB.sized (wzA.concat w2 f2 ecb).sized) fun b eb => rfl
  · intro a b e
    split at e
    · obtain ⟨a', ea, e⟩ := Res.bind_eq_ok.1 e
      obtain ⟨b', eb, e⟩ := Res.bind_eq_ok.1 e
      cases e
      exact ⟨w1.assign ea, w2.assign eb⟩
    · rename_i hcp
      have hf := fit (by simpa using hcp)
      rw [w1.2.2.2.2, w2.2.2.2.2] at e
      obtain ⟨zA, ezA, e⟩ := Res.bind_eq_ok.1 e
      obtain ⟨zB, ezB, e⟩ := Res.bind_eq_ok.1 e
      obtain ⟨-, -, -, dzA⟩ := mk3_dims ezA
      obtain ⟨-, -, -, dzB⟩ := mk3_dims ezB
      have wzA : Within zA := .of dzA w1.1 w1.2.1 (by omega) (by omega)
      have wzB : Within zB := .of dzB w2.1 w2.2.1 (by omega) (by omega)
      have f1 : i1.rows + zB.rows ≤ 46340 := by rw [dzB.1, d2.1, d1.1]; exact hf
      have f2 : zA.rows + i2.rows ≤ 46340 := by rw [dzA.1, d1.1, d2.1]; exact hf
      obtain ⟨ca, eca, e⟩ := Res.bind_eq_ok.1 e
      obtain ⟨a', ea, e⟩ := Res.bind_eq_ok.1 e
      obtain ⟨cb, ecb, e⟩ := Res.bind_eq_ok.1 e
      obtain ⟨b', eb, e⟩ := Res.bind_eq_ok.1 e
      cases e
      exact ⟨(w1.concat wzB f1 eca).assign ea, (wzA.concat w2 f2 ecb).assign eb⟩
  intro zA zB wzA wzB
  dsimp only
  refine bind_eq (invert_eq wzA.sized) fun zAi ez1 => ?_
  refine bind_eq (invert_eq wzB.sized) fun zBi ez2 => ?_
  have wzAi := wzA.invert ez1
  have wzBi := wzB.invert ez2
  refine bind_eq (hS.product_eq wP) fun inter ei => ?_
  have wi := hS.product wP ei
  refine bind_eq (wzAi.product_eq wi) fun gA egA => ?_
  have wgA := wzAi.product wi egA
  refine bind_eq (wzBi.product_eq wi) fun gB egB => ?_
  have wgB := wzBi.product wi egB
  refine bind_eq (invert_eq wgA.sized) fun gAi egAi => ?_
  have wgAi := wgA.invert egAi
  refine bind_eq (invert_eq wgB.sized) fun gBi egBi => ?_
  have wgBi := wgB.invert egBi
  refine bind_eq (wgB.product_eq wgAi) fun sAB esAB => ?_
  have wsAB := wgB.product wgAi esAB
  refine bind_eq hE fun en een => ?_
  have wen := hE' _ een
  refine bind_eq (wen.product_eq wgAi) fun t1 et1 => ?_
  have wt1 := wen.product wgAi et1
  refine bind_eq (wgB.product_eq wt1) fun jAB ejAB => ?_
  have wjAB := wgB.product wt1 ejAB
  refine bind_eq (wen.product_eq wgBi) fun t2 et2 => ?_
  have wt2 := wen.product wgBi et2
  refine bind_eq (wgB.product_eq wt2) fun eB' eeB => ?_
  have weB := wgB.product wt2 eeB
  refine bind_eq (wen.product_eq wgAi) fun t3 et3 => ?_
  have wt3 := wen.product wgAi et3
  refine bind_eq (wgA.product_eq wt3) fun eA' eeA => ?_
  have weA := wgA.product wt3 eeA
  refine bind_eq (getElem2_eq wjAB.sized 1 1) fun _ _ => ?_
  refine bind_eq (getElem2_eq weB.sized 1 1) fun _ _ => ?_
  refine bind_eq (getElem2_eq weA.sized 1 1) fun _ _ => ?_
  exact bind_eq (getElem2_eq wsAB.sized 1 1) fun _ _ => rfl

theorem transferReport_eq [One α] [Add α] [Sub α] [Mul α] [Div α] {coef1 coef2 coefP S oe : Mat α} (cp : Bool)
    (h1 : Within coef1) (h2 : Within coef2) (hP : Within coefP) (hS : Within S) (hE : Within oe)
    (fit : cp = false → coef1.cols + coef2.cols ≤ 46340) :
    transferReport coef1 coef2 coefP S oe cp = QC.transferReport coef1 coef2 coefP S oe cp :=
  transferReport_of cp h1 h2 hP hS hE.diag_eq (fun _ e => hE.diag e) fit

end
end Verif.Ints
