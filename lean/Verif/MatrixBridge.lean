import Verif.MatrixOps2
import Verif.Spec.Matrix
/-
Between the specification predicates `Init` / `WF` and the proof predicate `IsMat`.
-/
namespace Verif.Mat
variable {α : Type}

theorem Init.exists_isMat {m : Mat α} (h : Init m) [Nonempty α] :
    ∃ f, IsMat m m.rows m.cols m.shel f := by
  have hd : Inhabited α := Classical.inhabited_of_nonempty inferInstance
  refine ⟨fun i j k => (m.elem[(idx m.cols m.shel i j k).toNat]?.getD none).getD Inhabited.default, rfl, rfl, rfl,
    h.rows, h.cols, h.shel, h.size, ?_⟩
  intro i j k hi
  have hb := idx_bounds hi
  have hs := h.size
  have hlt : (idx m.cols m.shel i j k).toNat < m.elem.length := by omega
  rw [List.getElem?_eq_getElem hlt]
  have := h.full _ (List.getElem_mem hlt)
  cases hx : m.elem[(idx m.cols m.shel i j k).toNat] with
  | none => rw [hx] at this; simp at this
  | some v => simp

theorem IsMat.init {m : Mat α} {r c s f} (h : IsMat m r c s f) : Init m := by
  have hl := h.buf.len
  refine ⟨by rw [h.rows]; exact h.buf.hr, by rw [h.cols]; exact h.buf.hc, by rw [h.shel]; exact h.buf.hs,
    by rw [h.rows, h.cols, h.shel]; exact hl, ?_⟩
  intro x hx
  obtain ⟨n, hn, rfl⟩ := List.mem_iff_getElem.1 hx
  obtain ⟨i, j, k, hi, e⟩ := idx_surj (n := n) h.buf.hc h.buf.hs (by omega) (by omega : (n:Int) < r * c * s)
  have := h.buf.val i j k hi
  rw [← e, Int.toNat_natCast, List.getElem?_eq_getElem hn] at this
  rw [Option.some.inj this]; rfl

theorem WF.nonempty {m : Mat α} (h : WF m) : Nonempty α := by
  have h1 : 1 ≤ m.rows * m.cols * m.shel := by
    have hr := h.rows1; have hc := h.cols1; have hs := h.shel1
    have h1 : 1 * 1 ≤ m.rows * m.cols := Int.mul_le_mul hr hc (by omega) (by omega)
    have h2 : 1 * 1 ≤ m.rows * m.cols * m.shel := Int.mul_le_mul (by omega) hs (by omega) (by omega)
    omega
  have h2 := h.size
  cases he : m.elem with
  | nil => rw [he] at h2; simp at h2; omega
  | cons x xs =>
    have := h.full x (by rw [he]; simp)
    cases x with
    | none => simp at this
    | some v => exact ⟨v⟩

theorem WF.exists_isMat {m : Mat α} (h : WF m) : ∃ f, IsMat m m.rows m.cols m.shel f :=
  have := h.nonempty
  h.toInit.exists_isMat

theorem IsMat.wf {m : Mat α} {r c s f} (h : IsMat m r c s f) (hr : 1 ≤ r) (hc : 1 ≤ c) (hs : 1 ≤ s) : WF m :=
  ⟨h.init, by rw [h.rows]; exact hr, by rw [h.cols]; exact hc, by rw [h.shel]; exact hs⟩

/-- `get_elem(r,c,s)` on an initialised matrix, for all integers. -/
theorem IsMat.get3_eq {m : Mat α} {r c s f} (h : IsMat m r c s f) (i j k : Int) :
    m.getElem3 i j k = if InR r c s i j k then .ok (f i j k) else .exit 1 := by
  by_cases hi : InR r c s i j k
  · rw [if_pos hi, h.get3 hi]
  · rw [if_neg hi]
    unfold getElem3
    rw [h.rows, h.cols, h.shel]
    unfold InR at hi
    repeat' split
    all_goals first | rfl | (exfalso; apply hi; omega)

theorem IsMat.get2_eq {m : Mat α} {r c s f} (h : IsMat m r c s f) (hs : 1 ≤ s) (i j : Int) :
    m.getElem2 i j = if 1 ≤ i ∧ i ≤ r ∧ 1 ≤ j ∧ j ≤ c then .ok (f i j 1) else .exit 1 := by
  by_cases hi : 1 ≤ i ∧ i ≤ r ∧ 1 ≤ j ∧ j ≤ c
  · rw [if_pos hi, h.get2 hs hi.1 hi.2.1 hi.2.2.1 hi.2.2.2]
  · rw [if_neg hi]
    unfold getElem2
    rw [h.rows, h.cols]
    repeat' split
    all_goals first | rfl | (exfalso; apply hi; omega)

theorem IsMat.get1_eq {m : Mat α} {r c s f} (h : IsMat m r c s f) (hc : 1 ≤ c) (hs : 1 ≤ s) (i : Int) :
    m.getElem1 i = if 1 ≤ i ∧ i ≤ r then .ok (f i 1 1) else .exit 1 := by
  by_cases hi : 1 ≤ i ∧ i ≤ r
  · rw [if_pos hi, h.get1 hc hs hi.1 hi.2]
  · rw [if_neg hi]
    unfold getElem1
    rw [h.rows]
    repeat' split
    all_goals first | rfl | (exfalso; apply hi; omega)

theorem set3_exit {m : Mat α} {i j k : Int} (v : α) (hi : ¬ InR m.rows m.cols m.shel i j k) :
    m.setElem3 v i j k = .exit 1 := by
  unfold setElem3
  unfold InR at hi
  repeat' split
  all_goals first | rfl | (exfalso; apply hi; omega)

theorem set2_exit {m : Mat α} {i j : Int} (v : α) (hi : ¬ (1 ≤ i ∧ i ≤ m.rows ∧ 1 ≤ j ∧ j ≤ m.cols)) :
    m.setElem2 v i j = .exit 1 := by
  unfold setElem2
  repeat' split
  all_goals first | rfl | (exfalso; apply hi; omega)

theorem set1_exit {m : Mat α} {i : Int} (v : α) (hi : ¬ (1 ≤ i ∧ i ≤ m.rows)) :
    m.setElem1 v i = .exit 1 := by
  unfold setElem1
  repeat' split
  all_goals first | rfl | (exfalso; apply hi; omega)

/-- Equal reads everywhere and equal dimensions mean equal matrices. -/
theorem eq_of_sameElems {a b : Mat α} (ha : WF a) (hb : WF b) (h : SameElems a b) : a = b := by
  obtain ⟨f, hf⟩ := ha.exists_isMat
  obtain ⟨g, hg⟩ := hb.exists_isMat
  obtain ⟨h1, h2, h3, h4⟩ := h
  rw [h1, h2, h3] at hf
  refine hf.ext' hg ?_
  intro i j k hi
  have := h4 i j k
  rw [hf.get3_eq, hg.get3_eq, if_pos hi, if_pos hi] at this
  exact Res.ok.inj this

end Verif.Mat
