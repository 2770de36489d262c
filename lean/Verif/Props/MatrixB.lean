import Verif.Props.MatrixA
/-
Properties C11-C23: concatenation, diagonal, rows/columns, regrowth, extraction, matching.
-/
namespace Verif.Mat
variable {α : Type}

/-! ### C11 -/

/-- C11 (rows): `B` below `A`; reads of the result are reads of `A` up to `A.rows` and reads of `B` after. -/
theorem C11_concat_rows [Zero α] {A B : Mat α} (hA : WF A) (hB : WF B) (hc : A.cols = B.cols) (hs : A.shel = B.shel) :
    ∃ m, A.concatRows B = .ok m ∧ WF m ∧ m.rows = A.rows + B.rows ∧ m.cols = A.cols ∧ m.shel = A.shel ∧
      (∀ i j k, i ≤ A.rows → m.getElem3 i j k = A.getElem3 i j k) ∧
      (∀ i j k, 1 ≤ i → m.getElem3 (A.rows + i) j k = B.getElem3 i j k) := by
  obtain ⟨f, hf⟩ := hA.exists_isMat
  obtain ⟨g, hg⟩ := hB.exists_isMat
  rw [← hc, ← hs] at hg
  obtain ⟨m, e, hm⟩ := concatRows_isMat hf hg hA.rows1 hB.rows1 hA.cols1 hA.shel1
  have ha := hA.rows1
  have hb := hB.rows1
  refine ⟨m, e, hm.wf (by omega) hA.cols1 hA.shel1, hm.rows, hm.cols, hm.shel, ?_, ?_⟩
  · intro i j k hi
    rw [hm.get3_eq, hf.get3_eq, if_pos hi]
    congr 1; unfold InR; apply propext; omega
  · intro i j k hi
    have h1 : A.rows + i - A.rows = i := by omega
    rw [hm.get3_eq, hg.get3_eq]
    simp only [show ¬ (A.rows + i ≤ A.rows) by omega, if_false, h1]
    congr 1; unfold InR; apply propext; omega

/-- C11 (columns). -/
theorem C11_concat_cols [Zero α] {A B : Mat α} (hA : WF A) (hB : WF B) (hr : A.rows = B.rows) (hs : A.shel = B.shel) :
    ∃ m, A.concatCols B = .ok m ∧ WF m ∧ m.rows = A.rows ∧ m.cols = A.cols + B.cols ∧ m.shel = A.shel ∧
      (∀ i j k, j ≤ A.cols → m.getElem3 i j k = A.getElem3 i j k) ∧
      (∀ i j k, 1 ≤ j → m.getElem3 i (A.cols + j) k = B.getElem3 i j k) := by
  obtain ⟨f, hf⟩ := hA.exists_isMat
  obtain ⟨g, hg⟩ := hB.exists_isMat
  rw [← hr, ← hs] at hg
  obtain ⟨m, e, hm⟩ := concatCols_isMat hf hg hA.rows1 hA.cols1 hB.cols1 hA.shel1
  have ha := hA.cols1
  have hb := hB.cols1
  refine ⟨m, e, hm.wf hA.rows1 (by omega) hA.shel1, hm.rows, hm.cols, hm.shel, ?_, ?_⟩
  · intro i j k hi
    rw [hm.get3_eq, hf.get3_eq, if_pos hi]
    congr 1; unfold InR; apply propext; omega
  · intro i j k hi
    have h1 : A.cols + j - A.cols = j := by omega
    rw [hm.get3_eq, hg.get3_eq]
    simp only [show ¬ (A.cols + j ≤ A.cols) by omega, if_false, h1]
    congr 1; unfold InR; apply propext; omega

/-- C11 (mismatch): when the shared dimension or the shelves differ, the result is the 1 x 1 zero matrix. -/
theorem C11_mismatch [Zero α] (A B : Mat α) :
    ((A.cols ≠ B.cols ∨ A.shel ≠ B.shel) → A.concatRows B = .ok ⟨1, 1, 1, [some 0]⟩) ∧
    ((A.rows ≠ B.rows ∨ A.shel ≠ B.shel) → A.concatCols B = .ok ⟨1, 1, 1, [some 0]⟩) := by
  constructor
  · intro h; unfold concatRows
    by_cases h1 : A.cols ≠ B.cols
    · rw [if_pos h1]; rfl
    · rw [if_neg h1, if_pos (by rcases h with h | h; exact absurd h h1; exact h)]; rfl
  · intro h; unfold concatCols
    by_cases h1 : A.rows ≠ B.rows
    · rw [if_pos h1]; rfl
    · rw [if_neg h1, if_pos (by rcases h with h | h; exact absurd h h1; exact h)]; rfl

example : WF ex23 ∧ ex23.cols = ex23.cols := by decide
example : ex23.concatCols ⟨2, 1, 1, [some 7, some 8]⟩ =
    .ok ⟨2, 4, 1, [some 1, some 2, some 3, some 7, some 4, some 5, some 6, some 8]⟩ := by decide

/-! ### C12 -/

/-- C12: `Matrix_diag` of a row or column vector. -/
theorem C12_diag [Zero α] {m : Mat α} (h : WF m) (hs : m.shel = 1) (hv : m.rows = 1 ∨ m.cols = 1) :
    ∃ d, m.diag = .ok d ∧ WF d ∧ d.shel = 1 ∧
      (m.rows = 1 → d.rows = m.cols ∧ d.cols = m.cols ∧ ∀ i, d.getElem2 i i = m.getElem2 1 i) ∧
      (m.cols = 1 → d.rows = m.rows ∧ d.cols = m.rows ∧ ∀ i, d.getElem2 i i = m.getElem2 i 1) ∧
      (∀ i j, 1 ≤ i ∧ i ≤ d.rows → 1 ≤ j ∧ j ≤ d.rows → i ≠ j → d.getElem2 i j = .ok 0) := by
  obtain ⟨f, hf⟩ := h.exists_isMat
  have hr := h.rows1
  have hc := h.cols1
  rw [hs] at hf
  obtain ⟨d, e, hd⟩ := diag_isMat hf h.rows1 h.cols1 hv
  refine ⟨d, e, hd.wf (by omega) (by omega) (by omega), hd.shel, ?_, ?_, ?_⟩
  · intro h1
    refine ⟨by rw [hd.rows]; omega, by rw [hd.cols]; omega, fun i => ?_⟩
    rw [hd.get2_eq (by omega), hf.get2_eq (by omega), if_pos rfl]
    by_cases hi : 1 ≤ i ∧ i ≤ m.cols
    · rw [if_pos (by omega : 1 ≤ i ∧ i ≤ _ ∧ 1 ≤ i ∧ i ≤ _), if_pos (by omega : (1:Int) ≤ 1 ∧ 1 ≤ m.rows ∧ 1 ≤ i ∧ i ≤ m.cols)]
      by_cases hcr : m.cols > m.rows
      · simp only [if_pos hcr]
      · simp only [if_neg hcr]
        have : i = 1 := by omega
        rw [this]
    · rw [if_neg (by omega), if_neg (by omega)]
  · intro h1
    refine ⟨by rw [hd.rows]; omega, by rw [hd.cols]; omega, fun i => ?_⟩
    rw [hd.get2_eq (by omega), hf.get2_eq (by omega), if_pos rfl]
    by_cases hi : 1 ≤ i ∧ i ≤ m.rows
    · rw [if_pos (by omega : 1 ≤ i ∧ i ≤ _ ∧ 1 ≤ i ∧ i ≤ _), if_pos (by omega : 1 ≤ i ∧ i ≤ m.rows ∧ (1:Int) ≤ 1 ∧ 1 ≤ m.cols)]
      simp only [if_neg (by omega : ¬ m.cols > m.rows)]
    · rw [if_neg (by omega), if_neg (by omega)]
  · intro i j hi hj hne
    rw [hd.rows] at hi hj
    rw [hd.get2 (by omega) hi.1 hi.2 hj.1 hj.2, if_neg hne]

/-- C12 (rejection). -/
theorem C12_reject [Zero α] (m : Mat α) (h : (m.rows > 1 ∧ m.cols > 1) ∨ m.shel > 1) :
    m.diag = .throw .invalidArgument := by
  unfold diag
  repeat' split
  all_goals first | rfl | (exfalso; omega)

example : (⟨1, 2, 1, [some 3, some 4]⟩ : Mat Int).diag = .ok ⟨2, 2, 1, [some 3, some 0, some 0, some 4]⟩ := by decide

/-! ### C13 -/

/-- C13: `set_row` then `get_row`. -/
theorem C13_set_row [Zero α] {m : Mat α} (h : WF m) (v : List α) (r : Int) (hr : 1 ≤ r ∧ r ≤ m.rows)
    (hv : (v.length : Int) = m.cols) :
    ∃ m', m.setRow v r = .ok m' ∧ WF m' ∧ m'.rows = m.rows ∧ m'.cols = m.cols ∧ m'.shel = m.shel ∧
      m'.getRowVec r = .ok v ∧
      (∀ i j k, i ≠ r → m'.getElem3 i j k = m.getElem3 i j k) := by
  obtain ⟨f, hf⟩ := h.exists_isMat
  have : Inhabited α := ⟨f 1 1 1⟩
  obtain ⟨m', e, hm⟩ := setRow_isMat hf h.shel1 hr.1 hr.2 hv
  refine ⟨m', e, hm.wf h.rows1 h.cols1 h.shel1, hm.rows, hm.cols, hm.shel, ?_, ?_⟩
  · rw [getRowVec_ok hm h.shel1 hr.1 hr.2]
    congr 1
    apply List.ext_getElem
    · simp; omega
    · intro n h1 h2
      simp only [List.getElem_map, getElem_irange]
      simp only [true_and, if_true]
      rw [getElem!_pos v _ (by omega)]
      congr 1; omega
  · intro i j k hi
    rw [hm.get3_eq, hf.get3_eq]
    simp only [hi, false_and, if_false]

/-- C13 (rejection): a vector of another length is refused before anything is written. -/
theorem C13_reject [Zero α] (m : Mat α) (v : List α) (r : Int) (hv : (v.length : Int) ≠ m.cols) :
    m.setRow v r = .throw .invalidArgument := by
  unfold setRow; rw [if_pos (by omega)]

example : ex23.setRow [7, 8, 9] 2 = .ok ⟨2, 3, 1, [some 1, some 2, some 3, some 7, some 8, some 9]⟩ := by decide

/-! ### C14 -/

/-- C14 is false for non-square matrices: `set_col` compares the vector length with the number of *columns*, so
every call with a vector of length `rows` is refused. -/
theorem C14_refuted [Zero α] (m : Mat α) (v : List α) (c : Int) (hsq : m.rows ≠ m.cols)
    (hv : (v.length : Int) = m.rows) : m.setCol v c = .throw .invalidArgument := by
  unfold setCol; rw [if_pos (by omega)]

example : WF ex23 ∧ ex23.rows ≠ ex23.cols ∧ (([7, 8] : List Int).length : Int) = ex23.rows := by decide

/-- C14, partial: holds for square matrices. Missing: non-square matrices, where it is false (`C14_refuted`). -/
theorem C14_set_col_partial [Zero α] {m : Mat α} (h : WF m) (hsq : m.rows = m.cols) (v : List α) (c : Int)
    (hc : 1 ≤ c ∧ c ≤ m.cols) :
    ((v.length : Int) = m.rows → ∃ m', m.setCol v c = .ok m' ∧ WF m' ∧ m'.rows = m.rows ∧ m'.cols = m.cols ∧
      m'.shel = m.shel ∧ m'.getColVec c = .ok v ∧
      (∀ i j k, j ≠ c → m'.getElem3 i j k = m.getElem3 i j k)) ∧
    ((v.length : Int) ≠ m.rows → m.setCol v c = .throw .invalidArgument) := by
  constructor
  · intro hv
    obtain ⟨f, hf⟩ := h.exists_isMat
    have : Inhabited α := ⟨f 1 1 1⟩
    obtain ⟨m', e, hm⟩ := setCol_isMat hf h.shel1 (by omega) hc.1 hc.2 (v := v) (by omega)
    refine ⟨m', e, hm.wf h.rows1 h.cols1 h.shel1, hm.rows, hm.cols, hm.shel, ?_, ?_⟩
    · rw [getColVec_ok hm h.shel1 hc.1 hc.2]
      congr 1
      apply List.ext_getElem
      · simp; omega
      · intro n h1 h2
        simp only [List.getElem_map, getElem_irange]
        simp only [true_and, if_true]
        rw [getElem!_pos v _ (by omega)]
        congr 1; omega
    · intro i j k hi
      rw [hm.get3_eq, hf.get3_eq]
      simp only [hi, false_and, if_false]
  · intro hv; unfold setCol; rw [if_pos (by omega)]

/-- Even worse than refusal: with more rows than columns a vector of length `cols` is accepted by the size check and
then read past its end (`vector::at` throws). -/
theorem C14_tall_throws [Zero α] {m : Mat α} (h : WF m) (htall : m.cols < m.rows) (v : List α) (c : Int)
    (hc : 1 ≤ c ∧ c ≤ m.cols) (hv : (v.length : Int) = m.cols) : m.setCol v c = .throw .outOfRange := by
  obtain ⟨f, hf⟩ := h.exists_isMat
  unfold setCol
  rw [if_neg (by omega)]
  refine foldlM_fail (by intro f; rfl) (fun m' : Mat α => ∃ g, IsMat m' m.rows m.cols m.shel g) _ _ ?_ ?_ ⟨f, hf⟩
  · rintro x hx m' ⟨g, hg⟩
    have hx := mem_irange.1 hx
    rw [hg.cols, if_pos hc.2]
    by_cases hxc : x ≤ m.cols
    · right
      rw [vecAt_ok (n := (x - 1).toNat) (by omega) rfl (by omega)]
      obtain ⟨b', e, hb⟩ := hg.writeBuf (i := x) (j := c) (k := 1) ⟨hx.1, hx.2, hc.1, hc.2, by omega, h.shel1⟩
        (v[(x - 1).toNat]'(by omega)) (p := m'.index x c 1) (by unfold index; rw [hg.cols, hg.shel])
      exact ⟨_, by simp only [Res.ok_bind, e, hg.cols], _, hb⟩
    · left
      rw [vecAt_out (Or.inr (by omega))]; rfl
  · refine ⟨m.rows, mem_irange.2 ⟨h.rows1, by omega⟩, ?_⟩
    rintro m' ⟨g, hg⟩
    rw [hg.cols, if_pos hc.2, vecAt_out (Or.inr (by omega))]; rfl

example : (⟨2, 2, 1, [some 1, some 2, some 3, some 4]⟩ : Mat Int).setCol [7, 8] 2 = .ok ⟨2, 2, 1, [some 1, some 7, some 3, some 8]⟩ := by decide
example : WF (⟨2, 1, 1, [some 1, some 2]⟩ : Mat Int) ∧ (1:Int) < 2 := by decide

/-! ### C15 -/

/-- Exchange of `a` and `b`. -/
def swapIdx (a b i : Int) : Int := if i = a then b else if i = b then a else i

theorem swapIdx_invol (a b i : Int) : swapIdx a b (swapIdx a b i) = i := by
  unfold swapIdx; repeat' split
  all_goals omega

theorem swapIdx_range {a b n i : Int} (ha : 1 ≤ a ∧ a ≤ n) (hb : 1 ≤ b ∧ b ≤ n) :
    (1 ≤ swapIdx a b i ∧ swapIdx a b i ≤ n) ↔ (1 ≤ i ∧ i ≤ n) := by
  unfold swapIdx; repeat' split
  all_goals omega

/-- C15 (rows): on a single-shelf matrix `swap_row(a,b)` makes row `i` read like row `swapIdx a b i` before; applying
it again restores the matrix. -/
theorem C15_swap_row [Zero α] {m : Mat α} (h : WF m) (hs : m.shel = 1) (a b : Int)
    (ha : 1 ≤ a ∧ a ≤ m.rows) (hb : 1 ≤ b ∧ b ≤ m.rows) :
    ∃ m', m.swapRow a b = .ok m' ∧ WF m' ∧ m'.rows = m.rows ∧ m'.cols = m.cols ∧ m'.shel = 1 ∧
      (∀ j, m'.getElem2 a j = m.getElem2 b j ∧ m'.getElem2 b j = m.getElem2 a j) ∧
      (∀ i j, i ≠ a → i ≠ b → m'.getElem2 i j = m.getElem2 i j) ∧
      m'.swapRow a b = .ok m := by
  obtain ⟨f, hf⟩ := h.exists_isMat
  rw [hs] at hf
  obtain ⟨m', e, hm⟩ := swapRow_isMat hf (by omega) h.cols1 ha.1 ha.2 hb.1 hb.2
  obtain ⟨m2, e2, hm2⟩ := swapRow_isMat hm (by omega) h.cols1 ha.1 ha.2 hb.1 hb.2
  have key : ∀ i j, m'.getElem2 i j = m.getElem2 (swapIdx a b i) j := by
    intro i j
    rw [hm.get2_eq (by omega), hf.get2_eq (by omega)]
    have := @swapIdx_range a b m.rows i ha hb
    simp only [if_true]
    congr 1; apply propext; omega
  refine ⟨m', e, hm.wf h.rows1 h.cols1 (by omega), hm.rows, hm.cols, hm.shel, ?_, ?_, ?_⟩
  · intro j; rw [key, key]
    refine ⟨by simp [swapIdx], ?_⟩
    by_cases hab : b = a
    · simp [swapIdx, hab]
    · simp [swapIdx, hab]
  · intro i j h1 h2
    rw [key]; simp [swapIdx, h1, h2]
  · rw [e2]; congr 1
    refine hm2.ext' hf ?_
    intro i j k hi
    by_cases hk : k = 1
    · simp only [hk, if_true]
      have := swapIdx_invol a b i
      unfold swapIdx at this
      rw [this]
    · simp [hk]

/-- C15 (columns) is false for non-square matrices: `swap_col` then always throws. -/
theorem C15_swap_col_refuted [Zero α] {m : Mat α} (h : WF m) (hsq : m.rows ≠ m.cols) (a b : Int) (hab : a ≠ b)
    (ha : 1 ≤ a ∧ a ≤ m.cols) (hb : 1 ≤ b ∧ b ≤ m.cols) : m.swapCol a b = .throw .invalidArgument := by
  obtain ⟨f, hf⟩ := h.exists_isMat
  have hr := h.rows1
  unfold swapCol
  rw [if_neg hab, getColVec_ok hf h.shel1 ha.1 ha.2, getColVec_ok hf h.shel1 hb.1 hb.2]
  simp only [Res.ok_bind]
  rw [C14_refuted m _ b hsq (by simp; omega)]; rfl

/-- C15 (columns), partial: holds for square matrices. -/
theorem C15_swap_col_partial [Zero α] {m : Mat α} (h : WF m) (hs : m.shel = 1) (hsq : m.rows = m.cols) (a b : Int)
    (ha : 1 ≤ a ∧ a ≤ m.cols) (hb : 1 ≤ b ∧ b ≤ m.cols) :
    ∃ m', m.swapCol a b = .ok m' ∧ WF m' ∧ m'.rows = m.rows ∧ m'.cols = m.cols ∧ m'.shel = 1 ∧
      (∀ i, m'.getElem2 i a = m.getElem2 i b ∧ m'.getElem2 i b = m.getElem2 i a) ∧
      (∀ i j, j ≠ a → j ≠ b → m'.getElem2 i j = m.getElem2 i j) ∧
      m'.swapCol a b = .ok m := by
  obtain ⟨f, hf⟩ := h.exists_isMat
  rw [hs, ← hsq] at hf
  rw [← hsq] at ha hb
  obtain ⟨m', e, hm⟩ := swapCol_isMat hf (by omega) h.rows1 ha.1 ha.2 hb.1 hb.2
  obtain ⟨m2, e2, hm2⟩ := swapCol_isMat hm (by omega) h.rows1 ha.1 ha.2 hb.1 hb.2
  have key : ∀ i j, m'.getElem2 i j = m.getElem2 i (swapIdx a b j) := by
    intro i j
    rw [hm.get2_eq (by omega), hf.get2_eq (by omega)]
    have := @swapIdx_range a b m.rows j ha hb
    simp only [if_true]
    congr 1; apply propext; omega
  refine ⟨m', e, hm.wf h.rows1 h.rows1 (by omega), hm.rows, by rw [hm.cols, hsq], hm.shel, ?_, ?_, ?_⟩
  · intro j; rw [key, key]
    refine ⟨by simp [swapIdx], ?_⟩
    by_cases hab : b = a
    · simp [swapIdx, hab]
    · simp [swapIdx, hab]
  · intro i j h1 h2
    rw [key]; simp [swapIdx, h1, h2]
  · rw [e2]; congr 1
    refine hm2.ext' hf ?_
    intro i j k hi
    by_cases hk : k = 1
    · simp only [hk, if_true]
      have := swapIdx_invol a b j
      unfold swapIdx at this
      rw [this]
    · simp [hk]

example : ex23.swapRow 1 2 = .ok ⟨2, 3, 1, [some 4, some 5, some 6, some 1, some 2, some 3]⟩ := by decide
example : ex23.swapCol 1 2 = .throw .invalidArgument := by decide

/-! ### C16 -/

theorem moveSrc_range {a b n i : Int} (ha : 1 ≤ a ∧ a ≤ n) (hb : 1 ≤ b ∧ b ≤ n) :
    (1 ≤ moveSrc a b i ∧ moveSrc a b i ≤ n) ↔ (1 ≤ i ∧ i ≤ n) := by
  unfold moveSrc; repeat' split
  all_goals omega

theorem moveSrc_invol (a b i : Int) : moveSrc a b (moveSrc b a i) = i := by
  unfold moveSrc; repeat' split
  all_goals omega

/-- C16: `move_row(a,b)`: row `b` is old row `a`; rows strictly between (and `a` itself) shift by one towards `a`; all
others stay; `move_row(b,a)` undoes it. -/
theorem C16_move_row [Zero α] {m : Mat α} (h : WF m) (hs : m.shel = 1) (a b : Int)
    (ha : 1 ≤ a ∧ a ≤ m.rows) (hb : 1 ≤ b ∧ b ≤ m.rows) :
    ∃ m', m.moveRow a b = .ok m' ∧ WF m' ∧ m'.rows = m.rows ∧ m'.cols = m.cols ∧ m'.shel = 1 ∧
      (∀ j, m'.getElem2 b j = m.getElem2 a j) ∧
      (∀ i j, a ≤ i → i < b → m'.getElem2 i j = m.getElem2 (i + 1) j) ∧
      (∀ i j, b < i → i ≤ a → m'.getElem2 i j = m.getElem2 (i - 1) j) ∧
      (∀ i j, (i < a ∧ i < b) ∨ (a < i ∧ b < i) → m'.getElem2 i j = m.getElem2 i j) ∧
      m'.moveRow b a = .ok m := by
  obtain ⟨f, hf⟩ := h.exists_isMat
  rw [hs] at hf
  obtain ⟨m', e, hm⟩ := moveRow_isMat hf (by omega) h.cols1 ha.1 ha.2 hb.1 hb.2
  obtain ⟨m2, e2, hm2⟩ := moveRow_isMat hm (by omega) h.cols1 hb.1 hb.2 ha.1 ha.2
  have key : ∀ i j, m'.getElem2 i j = m.getElem2 (moveSrc a b i) j := by
    intro i j
    rw [hm.get2_eq (by omega), hf.get2_eq (by omega)]
    have := @moveSrc_range a b m.rows i ha hb
    simp only [if_true]
    congr 1; apply propext; omega
  refine ⟨m', e, hm.wf h.rows1 h.cols1 (by omega), hm.rows, hm.cols, hm.shel, ?_, ?_, ?_, ?_, ?_⟩
  · intro j; rw [key]; congr 1; unfold moveSrc; simp
  · intro i j h1 h2; rw [key]; congr 1; unfold moveSrc; (repeat' split) <;> omega
  · intro i j h1 h2; rw [key]; congr 1; unfold moveSrc; (repeat' split) <;> omega
  · intro i j h1; rw [key]; congr 1; unfold moveSrc; (repeat' split) <;> omega
  · rw [e2]; congr 1
    refine hm2.ext' hf ?_
    intro i j k hi
    by_cases hk : k = 1
    · simp only [hk, if_true]; rw [moveSrc_invol]
    · simp [hk]

example : (⟨3, 1, 1, [some 1, some 2, some 3]⟩ : Mat Int).moveRow 1 3 = .ok ⟨3, 1, 1, [some 2, some 3, some 1]⟩ := by decide

/-! ### C17 -/

/-- C17 is false: growing discards every row, the whole matrix becomes 0. -/
theorem C17_refuted [Zero α] {m : Mat α} (h : WF m) (r : Int) (hr : m.rows < r) :
    ∃ m', m.setRows r = .ok m' ∧ m'.rows = r ∧ m'.cols = m.cols ∧ m'.shel = m.shel ∧
      ∀ i j k, 1 ≤ i ∧ i ≤ r → 1 ≤ j ∧ j ≤ m.cols → 1 ≤ k ∧ k ≤ m.shel → m'.getElem3 i j k = .ok 0 := by
  obtain ⟨f, hf⟩ := h.exists_isMat
  obtain ⟨m', e, hm⟩ := setRows_grow_isMat hf hr
  exact ⟨m', e, hm.rows, hm.cols, hm.shel, fun i j k a b c => hm.get3 ⟨a.1, a.2, b.1, b.2, c.1, c.2⟩⟩

/-- Concrete witness: row 1 is lost. -/
theorem C17_refuted_witness : ∃ m', ex23.setRows 3 = .ok m' ∧ ex23.getElem2 1 1 = .ok 1 ∧ m'.getElem2 1 1 = .ok 0 :=
  ⟨_, rfl, by decide, by decide⟩

/-- C17, partial: holds when the number of rows does not grow. -/
theorem C17_set_rows_partial [Zero α] {m : Mat α} (h : WF m) (r : Int) (h0 : 0 ≤ r) (hr : r ≤ m.rows) :
    ∃ m', m.setRows r = .ok m' ∧ Init m' ∧ m'.rows = r ∧ m'.cols = m.cols ∧ m'.shel = m.shel ∧
      ∀ i j k, i ≤ r → m'.getElem3 i j k = m.getElem3 i j k := by
  obtain ⟨f, hf⟩ := h.exists_isMat
  obtain ⟨m', e, hm⟩ := setRows_shrink_isMat hf h0 hr
  refine ⟨m', e, hm.init, hm.rows, hm.cols, hm.shel, ?_⟩
  intro i j k hi
  rw [hm.get3_eq, hf.get3_eq]
  congr 1; unfold InR; apply propext; omega

/-- C17: negative sizes are refused. -/
theorem C17_negative [Zero α] (m : Mat α) (r : Int) (h : r < 0) : m.setRows r = .exit 1 := by
  unfold setRows; rw [if_pos h]

example : ex23.setRows 1 = .ok ⟨1, 3, 1, [some 1, some 2, some 3]⟩ := by decide

/-! ### C18, C19 -/

/-- One step of the regrowth loops either writes (keeping the buffer length) or is undefined. -/
theorem regrow_step [Zero α] (m : Mat α) (keep : Bool) (n : Nat) (i j k : Int) (temp : Buf α) (hl : temp.length = n) :
    (if keep then (do let v ← m.elem.read (m.index i j k); temp.write (m.index i j k) v)
      else temp.write (m.index i j k) 0) = Res.ub ∨
    ∃ b', (if keep then (do let v ← m.elem.read (m.index i j k); temp.write (m.index i j k) v)
      else temp.write (m.index i j k) 0) = Res.ok b' ∧ b'.length = n := by
  have hw : ∀ v : α, temp.write (m.index i j k) v = .ub ∨ ∃ b', temp.write (m.index i j k) v = .ok b' ∧ b'.length = n := by
    intro v; unfold Buf.write
    split
    · right; exact ⟨_, rfl, by simpa using hl⟩
    · left; rfl
  have hr : m.elem.read (m.index i j k) = .ub ∨ ∃ v, m.elem.read (m.index i j k) = .ok v := by
    unfold Buf.read
    split
    · left; rfl
    · split
      · right; exact ⟨_, rfl⟩
      · left; rfl
  cases keep with
  | true =>
    simp only [if_true]
    rcases hr with e | ⟨v, e⟩
    · left; rw [e]; rfl
    · rw [e]; exact hw v
  | false => simp only [Bool.false_eq_true, if_false]; exact hw 0

/-- The regrowth loop is undefined as soon as one visited index is outside the new buffer. -/
theorem regrow_ub [Zero α] (m : Mat α) (temp : Buf α) (r c s : Int) (keep : Bool) (i j k : Int)
    (hi : 1 ≤ i ∧ i ≤ r) (hj : 1 ≤ j ∧ j ≤ c) (hk : 1 ≤ k ∧ k ≤ s)
    (hout : (temp.length : Int) ≤ m.index i j k) : m.regrowLoop temp r c s keep = .ub := by
  unfold regrowLoop
  rw [forRange_nest3]
  refine foldlM_fail (by intro f; rfl) (fun b : Buf α => b.length = temp.length) _ _ ?_ ?_ rfl
  · intro x _ b hb
    exact regrow_step m keep temp.length _ _ _ b hb
  · refine ⟨(i, j, k), mem_triples.2 ⟨hi, hj, hk⟩, ?_⟩
    intro b hb
    have hw : ∀ v : α, b.write (m.index i j k) v = .ub := by
      intro v; unfold Buf.write; rw [if_neg]; omega
    rcases regrow_step m keep temp.length i j k b hb with e | ⟨b', e, _⟩
    · exact e
    · cases keep with
      | true =>
        simp only [if_true] at e
        obtain ⟨v, _, e2⟩ := Res.bind_eq_ok.1 e
        rw [hw v] at e2; cases e2
      | false =>
        simp only [Bool.false_eq_true, if_false] at e
        rw [hw 0] at e; cases e

/-- C18 is false: shrinking a matrix with more than one row writes past the end of the new buffer. -/
theorem C18_shrink_overflow [Zero α] {m : Mat α} (h : WF m) (hr : 2 ≤ m.rows) (c : Int) (hc : 1 ≤ c) (hlt : c < m.cols) :
    m.setCols c = .ub := by
  have hs := h.shel1
  unfold setCols
  rw [if_neg (by omega), if_neg (by omega), if_pos hlt]
  rw [regrow_ub m _ m.rows c m.shel true m.rows c m.shel ⟨by omega, by omega⟩ ⟨hc, by omega⟩ ⟨hs, by omega⟩]
  · rfl
  · simp only [Buf.alloc, List.length_replicate, index]
    rw [idx_eq]
    have h1 : m.rows * c + 1 ≤ (m.rows - 1) * m.cols + c := by
      obtain ⟨p, hp⟩ : ∃ p, m.rows = p + 1 := ⟨m.rows - 1, by omega⟩
      obtain ⟨d, hd⟩ : ∃ d, m.cols = c + d := ⟨m.cols - c, by omega⟩
      rw [hp, hd]
      have : 1 * 1 ≤ p * d := Int.mul_le_mul (by omega) (by omega) (by omega) (by omega)
      have e1 : (p + 1) * c = p * c + c := by rw [Int.add_mul]; omega
      have e2 : (p + 1 - 1) * (c + d) = p * c + p * d := by rw [Int.add_sub_cancel, Int.mul_add]
      rw [e1, e2]; omega
    have h2 : (m.rows * c + 1) * m.shel ≤ ((m.rows - 1) * m.cols + c) * m.shel :=
      Int.mul_le_mul_of_nonneg_right h1 (by omega)
    have e3 : (m.rows * c + 1) * m.shel = m.rows * c * m.shel + m.shel := by rw [Int.add_mul]; omega
    have e4 : ((m.rows - 1) * m.cols + c) * m.shel = ((m.rows - 1) * m.cols + (c - 1)) * m.shel + m.shel := by
      have : (m.rows - 1) * m.cols + c = ((m.rows - 1) * m.cols + (c - 1)) + 1 := by omega
      rw [this, Int.add_mul _ 1]; omega
    have h0 : 0 ≤ m.rows * c * m.shel := Int.mul_nonneg (Int.mul_nonneg (by omega) (by omega)) (by omega)
    omega

/-- C18 is false also for growth: the old elements are gone and, with two rows, some new cells are never initialised
(reading them is undefined). -/
theorem C18_grow_refuted : ∃ m', ex23.setCols 4 = .ok m' ∧ ex23.getElem2 1 1 = .ok 1 ∧ m'.getElem2 1 1 = .ok 0 ∧
    m'.getElem2 2 4 = .ub := ⟨_, rfl, by decide, by decide, by decide⟩

/-- C18, partial: holds when the number of columns stays the same, or shrinks on a one-row matrix. -/
theorem C18_set_cols_partial [Zero α] {m : Mat α} (h : WF m) (c : Int) (h0 : 0 ≤ c)
    (hc : c = m.cols ∨ (m.rows = 1 ∧ c ≤ m.cols)) :
    ∃ m', m.setCols c = .ok m' ∧ Init m' ∧ m'.rows = m.rows ∧ m'.cols = c ∧ m'.shel = m.shel ∧
      ∀ i j k, j ≤ c → m'.getElem3 i j k = m.getElem3 i j k := by
  obtain ⟨f, hf⟩ := h.exists_isMat
  by_cases hlt : c < m.cols
  · have hr : m.rows = 1 := by omega
    unfold setCols
    rw [if_neg (by omega), if_neg (by omega), if_pos hlt]
    have eidx : ∀ i j k, 1 ≤ i → i ≤ 1 → idx m.cols m.shel i j k = idx c m.shel i j k := by
      intro i j k h1 h2
      have : i = 1 := by omega
      subst this; simp [idx]
    obtain ⟨b, e, hb⟩ := BufIs.fill3 (lo := 1) (hi := m.rows) (lo2 := 1) (hi2 := c) (lo3 := 1) (hi3 := m.shel)
      (fun (temp : Buf α) i j k => do
          let v ← m.elem.read (m.index i j k)
          temp.write (m.index i j k) v)
      (fun i _ _ => i) (fun _ j _ => j) (fun _ _ k => k) (fun i j k => some (f i j k))
      (fun x y z h1 h2 h3 h4 h5 h6 => ⟨h1, h2, h3, h4, h5, h6⟩)
      (fun x y z a1 a2 a3 a4 a5 a6 b f hb => by
        rw [hf.buf.read (i := x) (j := y) (k := z) ⟨a1, a2, a3, by omega, a5, a6⟩ (p := m.index x y z) rfl rfl]
        exact hb.write ⟨a1, a2, a3, a4, a5, a6⟩ _ (eidx x y z a1 (by omega)))
      (BufIs.alloc (r := m.rows) (c := c) (s := m.shel) (by omega) h0 hf.buf.hs)
      (fun i j k hi hv => absurd ⟨rfl, rfl, rfl⟩
        (hv i j k hi.1 hi.2.1 hi.2.2.1 hi.2.2.2.1 hi.2.2.2.2.1 hi.2.2.2.2.2))
    have hm : IsMat (⟨m.rows, c, m.shel, b⟩ : Mat α) m.rows c m.shel f := ⟨rfl, rfl, rfl, hb⟩
    refine ⟨⟨m.rows, c, m.shel, b⟩, ?_, hm.init, rfl, rfl, rfl, ?_⟩
    · unfold regrowLoop
      simp only [if_true]
      rw [e]; rfl
    · intro i j k hj
      rw [hm.get3_eq, hf.get3_eq]
      congr 1; unfold InR; apply propext; omega
  · have : c = m.cols := by omega
    subst this
    refine ⟨m, ?_, h.toInit, rfl, rfl, rfl, fun _ _ _ _ => rfl⟩
    unfold setCols
    rw [if_neg (by omega), if_neg (by omega), if_neg (by omega)]

/-- C18: negative sizes are refused. -/
theorem C18_negative [Zero α] (m : Mat α) (c : Int) (h : c < 0) : m.setCols c = .exit 1 := by
  unfold setCols; rw [if_pos h]

example : (⟨1, 3, 1, [some 1, some 2, some 3]⟩ : Mat Int).setCols 2 = .ok ⟨1, 2, 1, [some 1, some 2]⟩ := by decide
example : WF ex23 ∧ 2 ≤ ex23.rows ∧ (1:Int) ≤ 2 ∧ 2 < ex23.cols := by decide

/-- C19 is false: reducing the shelves of a matrix with more than one row or column writes past the buffer. -/
theorem C19_shrink_overflow [Zero α] {m : Mat α} (h : WF m) (hr : 2 ≤ m.rows ∨ 2 ≤ m.cols) (s : Int) (hs : 1 ≤ s)
    (hlt : s < m.shel) : m.setShel s = .ub := by
  have hr1 := h.rows1
  have hc1 := h.cols1
  unfold setShel
  rw [if_neg (by omega), if_neg (by omega), if_pos hlt]
  rw [regrow_ub m _ m.rows m.cols s true m.rows m.cols s ⟨by omega, by omega⟩ ⟨hc1, by omega⟩ ⟨hs, by omega⟩]
  · rfl
  · simp only [Buf.alloc, List.length_replicate, index]
    rw [idx_eq]
    -- with p = rows*cols - 1 ≥ 1: (rows*cols)*s ≤ p*shel + s - 1
    have e0 : (m.rows - 1) * m.cols + (m.cols - 1) = m.rows * m.cols - 1 := by rw [Int.sub_mul]; omega
    rw [e0]
    have hp : 2 ≤ m.rows * m.cols := by
      rcases hr with h2 | h2
      · have : 2 * 1 ≤ m.rows * m.cols := Int.mul_le_mul h2 hc1 (by omega) (by omega)
        omega
      · have : 1 * 2 ≤ m.rows * m.cols := Int.mul_le_mul hr1 h2 (by omega) (by omega)
        omega
    generalize m.rows * m.cols = N at *
    obtain ⟨p, rfl⟩ : ∃ p, N = p + 1 := ⟨N - 1, by omega⟩
    obtain ⟨d, hd⟩ : ∃ d, m.shel = s + d := ⟨m.shel - s, by omega⟩
    rw [hd]
    have h1 : 1 * 1 ≤ p * d := Int.mul_le_mul (by omega) (by omega) (by omega) (by omega)
    have e1 : (p + 1) * s = p * s + s := by rw [Int.add_mul]; omega
    have e2 : (p + 1 - 1) * (s + d) = p * s + p * d := by rw [Int.add_sub_cancel, Int.mul_add]
    have h0 : 0 ≤ p * s := Int.mul_nonneg (by omega) (by omega)
    rw [e1, e2]; omega

/-- C19 is false also for growth. -/
theorem C19_grow_refuted : ∃ m', ex23.setShel 2 = .ok m' ∧ ex23.getElem3 1 1 1 = .ok 1 ∧ m'.getElem3 1 1 1 = .ok 0 ∧
    m'.getElem3 2 3 2 = .ub := ⟨_, rfl, by decide, by decide, by decide⟩

/-- C19, partial: holds when the number of shelves stays the same, or shrinks on a 1 x 1 matrix. -/
theorem C19_set_shel_partial [Zero α] {m : Mat α} (h : WF m) (s : Int) (h0 : 0 ≤ s)
    (hs : s = m.shel ∨ (m.rows = 1 ∧ m.cols = 1 ∧ s ≤ m.shel)) :
    ∃ m', m.setShel s = .ok m' ∧ Init m' ∧ m'.rows = m.rows ∧ m'.cols = m.cols ∧ m'.shel = s ∧
      ∀ i j k, k ≤ s → m'.getElem3 i j k = m.getElem3 i j k := by
  obtain ⟨f, hf⟩ := h.exists_isMat
  by_cases hlt : s < m.shel
  · have hr : m.rows = 1 := by omega
    have hc : m.cols = 1 := by omega
    unfold setShel
    rw [if_neg (by omega), if_neg (by omega), if_pos hlt]
    have eidx : ∀ i j k, 1 ≤ i → i ≤ 1 → 1 ≤ j → j ≤ 1 → idx m.cols m.shel i j k = idx m.cols s i j k := by
      intro i j k h1 h2 h3 h4
      have : i = 1 := by omega
      have : j = 1 := by omega
      subst_vars; simp [idx]
    obtain ⟨b, e, hb⟩ := BufIs.fill3 (lo := 1) (hi := m.rows) (lo2 := 1) (hi2 := m.cols) (lo3 := 1) (hi3 := s)
      (fun (temp : Buf α) i j k => do
          let v ← m.elem.read (m.index i j k)
          temp.write (m.index i j k) v)
      (fun i _ _ => i) (fun _ j _ => j) (fun _ _ k => k) (fun i j k => some (f i j k))
      (fun x y z h1 h2 h3 h4 h5 h6 => ⟨h1, h2, h3, h4, h5, h6⟩)
      (fun x y z a1 a2 a3 a4 a5 a6 b f hb => by
        rw [hf.buf.read (i := x) (j := y) (k := z) ⟨a1, a2, a3, a4, a5, by omega⟩ (p := m.index x y z) rfl rfl]
        exact hb.write ⟨a1, a2, a3, a4, a5, a6⟩ _ (eidx x y z a1 (by omega) a3 (by omega)))
      (BufIs.alloc (r := m.rows) (c := m.cols) (s := s) (by omega) (by omega) h0)
      (fun i j k hi hv => absurd ⟨rfl, rfl, rfl⟩
        (hv i j k hi.1 hi.2.1 hi.2.2.1 hi.2.2.2.1 hi.2.2.2.2.1 hi.2.2.2.2.2))
    have hm : IsMat (⟨m.rows, m.cols, s, b⟩ : Mat α) m.rows m.cols s f := ⟨rfl, rfl, rfl, hb⟩
    refine ⟨⟨m.rows, m.cols, s, b⟩, ?_, hm.init, rfl, rfl, rfl, ?_⟩
    · unfold regrowLoop
      simp only [if_true]
      rw [e]; rfl
    · intro i j k hj
      rw [hm.get3_eq, hf.get3_eq]
      congr 1; unfold InR; apply propext; omega
  · have : s = m.shel := by omega
    subst this
    refine ⟨m, ?_, h.toInit, rfl, rfl, rfl, fun _ _ _ _ => rfl⟩
    unfold setShel
    rw [if_neg (by omega), if_neg (by omega), if_neg (by omega)]

example : WF ex222 ∧ 2 ≤ ex222.rows ∧ (1:Int) < ex222.shel := by decide
example : (⟨1, 1, 2, [some 1, some 2]⟩ : Mat Int).setShel 1 = .ok ⟨1, 1, 1, [some 1]⟩ := by decide

/-! ### C20 -/

/-- C20: `getRow`. -/
theorem C20_getRow [Zero α] {m : Mat α} (h : WF m) (R : Int) :
    (1 ≤ R → R ≤ m.rows → ∃ m', m.getRow R = .ok m' ∧ WF m' ∧ m'.rows = 1 ∧ m'.cols = m.cols ∧ m'.shel = m.shel ∧
      ∀ j k, m'.getElem3 1 j k = m.getElem3 R j k) ∧
    (R < 1 ∨ m.rows < R → m.getRow R = .exit 1) := by
  obtain ⟨f, hf⟩ := h.exists_isMat
  constructor
  · intro h1 h2
    obtain ⟨m', e, hm⟩ := getRow_isMat hf h.cols1 h.shel1 h1 h2
    refine ⟨m', e, hm.wf (by omega) h.cols1 h.shel1, hm.rows, hm.cols, hm.shel, ?_⟩
    intro j k
    rw [hm.get3_eq, hf.get3_eq]
    congr 1; unfold InR; apply propext; omega
  · intro hR
    unfold getRow
    by_cases h2 : m.rows < R
    · rw [if_pos h2]
    · rw [if_neg h2]
      obtain ⟨m1, e1, h1⟩ := mk3_isMat (α := α) (r := 1) (by omega) h.cols1 h.shel1
      have hge : m.getElem3 R 1 1 = .exit 1 := by
        rw [hf.get3_eq, if_neg]; unfold InR; omega
      rw [e1]; simp only [Res.ok_bind]
      rw [forRange_cons h.cols1, forRange_cons h.shel1, hge]; rfl

example : ex23.getRow 2 = .ok ⟨1, 3, 1, [some 4, some 5, some 6]⟩ := by decide
example : ex23.getRow 0 = .exit 1 := by decide

/-! ### C21 -/

/-- C21 is false when there are more rows than columns: `getCol` allocates `cols x 1` and terminates the process. -/
theorem C21_refuted_tall [Zero α] {m : Mat α} (h : WF m) (htall : m.cols < m.rows) (C : Int) (hC : 1 ≤ C ∧ C ≤ m.cols) :
    m.getCol C = .exit 1 := by
  obtain ⟨f, hf⟩ := h.exists_isMat
  have hs := h.shel1
  unfold getCol
  rw [if_neg (by omega)]
  obtain ⟨m1, e1, h1⟩ := mk3_isMat (α := α) h.cols1 (c := 1) (by omega) h.shel1
  rw [e1]; simp only [Res.ok_bind]
  rw [forRange_nest]
  refine foldlM_fail (by intro f; rfl) (fun m' : Mat α => ∃ g, IsMat m' m.cols 1 m.shel g) _ _ ?_ ?_ ⟨_, h1⟩
  · rintro ⟨i, k⟩ hx m' ⟨g, hg⟩
    obtain ⟨⟨a1, a2⟩, a3, a4⟩ := mem_pairs.1 hx
    simp only at a1 a2 a3 a4 ⊢
    rw [hf.get3 ⟨a1, a2, hC.1, hC.2, a3, a4⟩]
    by_cases hic : i ≤ m.cols
    · right
      obtain ⟨m2, e2, h2⟩ := hg.set3 (i := i) (j := 1) (k := k) ⟨a1, hic, by omega, by omega, a3, a4⟩ (f i C k)
      exact ⟨m2, e2, _, h2⟩
    · left
      exact set3_exit _ (by rw [hg.rows]; unfold InR; omega)
  · refine ⟨(m.rows, 1), mem_pairs.2 ⟨⟨h.rows1, by omega⟩, by omega, hs⟩, ?_⟩
    rintro m' ⟨g, hg⟩
    simp only
    rw [hf.get3 ⟨h.rows1, by omega, hC.1, hC.2, by omega, hs⟩]
    exact set3_exit _ (by rw [hg.rows]; unfold InR; omega)

/-- C21 is false when there are more columns than rows: the result has `cols` rows, padded with zeros. -/
theorem C21_refuted_wide [Zero α] {m : Mat α} (h : WF m) (hwide : m.rows < m.cols) (C : Int) (hC : 1 ≤ C ∧ C ≤ m.cols) :
    ∃ m', m.getCol C = .ok m' ∧ m'.rows = m.cols ∧ m'.rows ≠ m.rows ∧
      ∀ i, m.rows < i → i ≤ m.cols → m'.getElem2 i 1 = .ok 0 := by
  obtain ⟨f, hf⟩ := h.exists_isMat
  obtain ⟨m', e, hm⟩ := getCol_isMat hf h.cols1 h.shel1 (by omega) hC.1 hC.2
  refine ⟨m', e, hm.rows, by rw [hm.rows]; omega, ?_⟩
  intro i h1 h2
  have := h.rows1
  rw [hm.get2 h.shel1 (by omega) h2 (by omega) (by omega), if_neg (by omega)]

/-- C21, partial: on square matrices. Missing: non-square ones, where it is false. Invalid column numbers are
refused for every shape. -/
theorem C21_getCol_partial [Zero α] {m : Mat α} (h : WF m) (C : Int) :
    (m.rows = m.cols → 1 ≤ C → C ≤ m.cols → ∃ m', m.getCol C = .ok m' ∧ WF m' ∧ m'.rows = m.rows ∧ m'.cols = 1 ∧
      m'.shel = m.shel ∧ ∀ i k, m'.getElem3 i 1 k = m.getElem3 i C k) ∧
    (C < 1 ∨ m.cols < C → m.getCol C = .exit 1) := by
  obtain ⟨f, hf⟩ := h.exists_isMat
  constructor
  · intro hsq h1 h2
    obtain ⟨m', e, hm⟩ := getCol_isMat hf h.cols1 h.shel1 (by omega) h1 h2
    refine ⟨m', e, hm.wf h.cols1 (by omega) h.shel1, by rw [hm.rows, hsq], hm.cols, hm.shel, ?_⟩
    intro i k
    rw [hm.get3_eq, hf.get3_eq]
    by_cases hi : InR m.rows m.cols m.shel i C k
    · have : i ≤ m.rows := hi.2.1
      rw [if_pos this, if_pos hi, if_pos (by unfold InR at *; omega)]
    · rw [if_neg hi, if_neg (by unfold InR at *; omega)]
  · intro hR
    unfold getCol
    by_cases h2 : m.cols < C
    · rw [if_pos h2]
    · rw [if_neg h2]
      obtain ⟨m1, e1, h1⟩ := mk3_isMat (α := α) h.cols1 (c := 1) (by omega) h.shel1
      have hge : m.getElem3 1 C 1 = .exit 1 := by
        rw [hf.get3_eq, if_neg]; unfold InR; omega
      rw [e1]; simp only [Res.ok_bind]
      rw [forRange_cons h.rows1, forRange_cons h.shel1, hge]; rfl

example : WF (⟨2, 1, 1, [some 1, some 2]⟩ : Mat Int) ∧ (⟨2, 1, 1, [some 1, some 2]⟩ : Mat Int).getCol 1 = .exit 1 := by decide
example : (⟨2, 2, 1, [some 1, some 2, some 3, some 4]⟩ : Mat Int).getCol 2 = .ok ⟨2, 1, 1, [some 2, some 4]⟩ := by decide

/-! ### C22 -/

/-- Column `i` of `m` prints like column `ii` of `mat`: for every row the two reads succeed and print the same. -/
def ColPrintsLike {β : Type} (tos : α → β) (m mat : Mat α) (i ii : Int) : Prop :=
  ∀ j, 1 ≤ j → j ≤ m.rows → ∃ a b, m.getElem2 j i = .ok a ∧ mat.getElem2 j ii = .ok b ∧ tos a = tos b

/-- Row version. -/
def RowPrintsLike {β : Type} (tos : α → β) (m mat : Mat α) (i ii : Int) : Prop :=
  ∀ j, 1 ≤ j → j ≤ m.cols → ∃ a b, m.getElem2 i j = .ok a ∧ mat.getElem2 ii j = .ok b ∧ tos a = tos b

/-- C22 (columns): one entry per column; entry `i` is the largest matching column number, or -1 iff there is none. -/
theorem C22_matchCol {β : Type} [DecidableEq β] (tos : α → β) {m mat : Mat α} (h : WF m) (h' : WF mat)
    (hs : m.shel = 1) (hs' : mat.shel = 1) (hr : mat.rows = m.rows) :
    ∃ v, matchCol tos m mat = .ok v ∧ (v.length : Int) = m.cols ∧
      ∀ (t : Nat) (ht : t < v.length),
        (v[t] = -1 ∧ (∀ ii, 1 ≤ ii → ii ≤ mat.cols → ¬ ColPrintsLike tos m mat (t + 1) ii)) ∨
        (1 ≤ v[t] ∧ v[t] ≤ mat.cols ∧ ColPrintsLike tos m mat (t + 1) v[t] ∧
          ∀ ii, v[t] < ii → ii ≤ mat.cols → ¬ ColPrintsLike tos m mat (t + 1) ii) := by
  obtain ⟨f, hf⟩ := h.exists_isMat
  obtain ⟨g, hg⟩ := h'.exists_isMat
  rw [hs] at hf
  rw [hs', hr] at hg
  have hc := h.cols1
  have hc' := h'.cols1
  refine ⟨_, matchCol_ok tos hf hg, by simp; omega, ?_⟩
  intro t ht
  have htl : (t : Int) + 1 ≤ m.cols := by simp at ht; omega
  have key : ∀ ii, 1 ≤ ii → ii ≤ mat.cols →
      (decide (∀ j ∈ irange 1 m.rows, tos (f j (t + 1) 1) = tos (g j ii 1)) = true ↔ ColPrintsLike tos m mat (t + 1) ii) := by
    intro ii h1 h2
    rw [decide_eq_true_iff]
    unfold ColPrintsLike
    constructor
    · intro hall j hj1 hj2
      exact ⟨_, _, hf.get2 (by omega) hj1 hj2 (by omega) htl, hg.get2 (by omega) hj1 hj2 h1 h2,
        hall j (mem_irange.2 ⟨hj1, hj2⟩)⟩
    · intro hall j hj
      have hj := mem_irange.1 hj
      obtain ⟨a, b, ha, hb, e⟩ := hall j hj.1 hj.2
      rw [hf.get2 (by omega) hj.1 hj.2 (by omega) htl] at ha
      rw [hg.get2 (by omega) hj.1 hj.2 h1 h2] at hb
      cases ha; cases hb; exact e
  have e1 : (1 : Int) + t = t + 1 := by omega
  simp only [List.getElem_map, getElem_irange, e1]
  rcases lastSat_spec (fun ii => decide (∀ j ∈ irange 1 m.rows, tos (f j (t + 1) 1) = tos (g j ii 1)))
    (n := mat.cols) (by omega) with ⟨h1, h2⟩ | ⟨h1, h2, h3, h4⟩
  · left
    refine ⟨h1, fun ii a b hp => ?_⟩
    have := h2 ii a b
    rw [(key ii a b).2 hp] at this; cases this
  · right
    refine ⟨h1, h2, (key _ h1 h2).1 h3, fun ii a b hp => ?_⟩
    have := h4 ii a b
    rw [(key ii (by omega) b).2 hp] at this; cases this

/-- C22 (rows). -/
theorem C22_matchRow {β : Type} [DecidableEq β] (tos : α → β) {m mat : Mat α} (h : WF m) (h' : WF mat)
    (hs : m.shel = 1) (hs' : mat.shel = 1) (hr : mat.cols = m.cols) :
    ∃ v, matchRow tos m mat = .ok v ∧ (v.length : Int) = m.rows ∧
      ∀ (t : Nat) (ht : t < v.length),
        (v[t] = -1 ∧ (∀ ii, 1 ≤ ii → ii ≤ mat.rows → ¬ RowPrintsLike tos m mat (t + 1) ii)) ∨
        (1 ≤ v[t] ∧ v[t] ≤ mat.rows ∧ RowPrintsLike tos m mat (t + 1) v[t] ∧
          ∀ ii, v[t] < ii → ii ≤ mat.rows → ¬ RowPrintsLike tos m mat (t + 1) ii) := by
  obtain ⟨f, hf⟩ := h.exists_isMat
  obtain ⟨g, hg⟩ := h'.exists_isMat
  rw [hs] at hf
  rw [hs', hr] at hg
  have hc := h.rows1
  have hc' := h'.rows1
  refine ⟨_, matchRow_ok tos hf hg, by simp; omega, ?_⟩
  intro t ht
  have htl : (t : Int) + 1 ≤ m.rows := by simp at ht; omega
  have key : ∀ ii, 1 ≤ ii → ii ≤ mat.rows →
      (decide (∀ j ∈ irange 1 m.cols, tos (f (t + 1) j 1) = tos (g ii j 1)) = true ↔ RowPrintsLike tos m mat (t + 1) ii) := by
    intro ii h1 h2
    rw [decide_eq_true_iff]
    unfold RowPrintsLike
    constructor
    · intro hall j hj1 hj2
      exact ⟨_, _, hf.get2 (by omega) (by omega) htl hj1 hj2, hg.get2 (by omega) h1 h2 hj1 hj2,
        hall j (mem_irange.2 ⟨hj1, hj2⟩)⟩
    · intro hall j hj
      have hj := mem_irange.1 hj
      obtain ⟨a, b, ha, hb, e⟩ := hall j hj.1 hj.2
      rw [hf.get2 (by omega) (by omega) htl hj.1 hj.2] at ha
      rw [hg.get2 (by omega) h1 h2 hj.1 hj.2] at hb
      cases ha; cases hb; exact e
  have e1 : (1 : Int) + t = t + 1 := by omega
  simp only [List.getElem_map, getElem_irange, e1]
  rcases lastSat_spec (fun ii => decide (∀ j ∈ irange 1 m.cols, tos (f (t + 1) j 1) = tos (g ii j 1)))
    (n := mat.rows) (by omega) with ⟨h1, h2⟩ | ⟨h1, h2, h3, h4⟩
  · left
    refine ⟨h1, fun ii a b hp => ?_⟩
    have := h2 ii a b
    rw [(key ii a b).2 hp] at this; cases this
  · right
    refine ⟨h1, h2, (key _ h1 h2).1 h3, fun ii a b hp => ?_⟩
    have := h4 ii a b
    rw [(key ii (by omega) b).2 hp] at this; cases this

/-- C22 (three-dimensional matrices): they are refused; the program is ended. -/
theorem C22_shelves {β : Type} [DecidableEq β] (tos : α → β) (m mat : Mat α) (h : m.shel ≠ 1 ∨ mat.shel ≠ 1) :
    matchCol tos m mat = .exit 1 ∧ matchRow tos m mat = .exit 1 := by
  unfold matchCol matchRow
  rw [if_pos h.symm, if_pos h.symm]
  exact ⟨rfl, rfl⟩

/-- C22 (rejection). -/
theorem C22_reject {β : Type} [DecidableEq β] (tos : α → β) (m mat : Mat α) (hs : m.shel = 1) (hs' : mat.shel = 1) :
    (mat.rows ≠ m.rows → matchCol tos m mat = .throw .invalidArgument) ∧
    (mat.cols ≠ m.cols → matchRow tos m mat = .throw .invalidArgument) := by
  constructor
  · intro h; unfold matchCol; rw [if_neg (by omega), if_pos h]
  · intro h; unfold matchRow; rw [if_neg (by omega), if_pos h]

example : matchCol (id : Int → Int) (⟨1, 3, 1, [some 5, some 7, some 9]⟩) (⟨1, 3, 1, [some 7, some 5, some 7]⟩) = .ok [2, 3, -1] := by decide

/-! ### C23 -/

/-- C23: if the columns of `P` print pairwise differently and column `i` of `A` prints like column `t i` of `P`, then
`A.matchCol(P)` is exactly `t 1, ..., t n`. -/
theorem C23_matchCol_recovers {β : Type} [DecidableEq β] (tos : α → β) {A P : Mat α} (hA : WF A) (hP : WF P)
    (hs : A.shel = 1) (hs' : P.shel = 1) (hr : P.rows = A.rows) (t : Int → Int)
    (ht : ∀ i, 1 ≤ i → i ≤ A.cols → 1 ≤ t i ∧ t i ≤ P.cols ∧ ColPrintsLike tos A P i (t i))
    (hdiff : ∀ a b, 1 ≤ a → a ≤ P.cols → 1 ≤ b → b ≤ P.cols → ColPrintsLike tos P P a b → a = b) :
    matchCol tos A P = .ok ((irange 1 A.cols).map t) ∧ (-1 : Int) ∉ (irange 1 A.cols).map t ∧
    ((∀ a b, 1 ≤ a → a ≤ A.cols → 1 ≤ b → b ≤ A.cols → ColPrintsLike tos A A a b → a = b) →
      ((irange 1 A.cols).map t).Nodup) := by
  obtain ⟨v, e, hl, hv⟩ := C22_matchCol tos hA hP hs hs' hr
  have hc := hA.cols1
  have eqv : v = (irange 1 A.cols).map t := by
    apply List.ext_getElem
    · simp; omega
    · intro n h1 h2
      simp only [List.getElem_map, getElem_irange]
      have e1 : (1 : Int) + n = n + 1 := by omega
      rw [e1]
      obtain ⟨a1, a2, a3⟩ := ht (n + 1) (by omega) (by omega)
      rcases hv n h1 with ⟨_, b2⟩ | ⟨b1, b2, b3, b4⟩
      · exact absurd a3 (b2 _ a1 a2)
      · refine hdiff _ _ b1 b2 a1 a2 ?_
        intro j hj1 hj2
        rw [hr] at hj2
        obtain ⟨x, y, hx, hy, exy⟩ := b3 j hj1 hj2
        obtain ⟨x', z, hx', hz, exz⟩ := a3 j hj1 hj2
        rw [hx] at hx'; cases hx'
        exact ⟨y, z, hy, hz, by rw [← exy, exz]⟩
  refine ⟨by rw [e, eqv], ?_, ?_⟩
  · intro hm
    obtain ⟨i, hi, e⟩ := List.mem_map.1 hm
    have hi := mem_irange.1 hi
    have := ht i hi.1 hi.2
    omega
  · intro hinj
    unfold List.Nodup
    rw [List.pairwise_map]
    refine List.Pairwise.imp_of_mem ?_ (nodup_irange 1 A.cols)
    intro a b ha hb hne heq
    have ha := mem_irange.1 ha
    have hb := mem_irange.1 hb
    apply hne
    refine hinj a b ha.1 ha.2 hb.1 hb.2 ?_
    intro j hj1 hj2
    obtain ⟨x, y, hx, hy, exy⟩ := (ht a ha.1 ha.2).2.2 j hj1 hj2
    obtain ⟨x', y', hx', hy', exy'⟩ := (ht b hb.1 hb.2).2.2 j hj1 hj2
    rw [heq] at hy; rw [hy] at hy'; cases hy'
    exact ⟨x, x', hx, hx', by rw [exy, exy']⟩

/-- The hypotheses of C23 are met by a reordered geometry. -/
example : matchCol (id : Int → Int) (⟨2, 2, 1, [some 5, some 7, some 1, some 1]⟩) (⟨2, 3, 1, [some 7, some 5, some 0, some 1, some 1, some 1]⟩)
    = .ok [2, 1] := by decide

end Verif.Mat
