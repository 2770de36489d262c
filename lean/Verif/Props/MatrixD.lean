import Verif.Props.MatrixC
/-
Property C93: what the row and column operations do for every shape and every row or column number, and property C94:
what `set_rows`, `set_cols` and `set_shel` do for every shape and every new size. Several of the wished-for
properties C14, C15, C17, C18, C19, C21 are false of the code; these two say what happens instead.
-/
namespace Verif.Mat
variable {α : Type}

/-! ### C93 -/

/-- Column `c` of a matrix of positive dimensions has no storage: some cell of it is outside the buffer. -/
theorem col_outside {m : Mat α} (h : WF m) {c : Int} (hc : ¬ (1 ≤ c ∧ c ≤ m.cols)) :
    ∃ i, 1 ≤ i ∧ i ≤ m.rows ∧ (m.index i c 1 < 0 ∨ (m.elem.length : Int) ≤ m.index i c 1) := by
  have hr := h.rows1; have hs := h.shel1
  by_cases h1 : c < 1
  · refine ⟨1, by omega, hr, Or.inl ?_⟩
    unfold index; rw [idx_eq]
    have : (c - 1) * m.shel ≤ (-1) * m.shel := Int.mul_le_mul_of_nonneg_right (by omega) (by omega)
    simp only [Int.sub_self, Int.zero_mul, Int.zero_add]; omega
  · refine ⟨m.rows, hr, by omega, Or.inr ?_⟩
    unfold index; rw [idx_eq, h.size]
    have : (m.rows * m.cols) * m.shel ≤ ((m.rows - 1) * m.cols + (c - 1)) * m.shel := by
      apply Int.mul_le_mul_of_nonneg_right _ (by omega)
      rw [Int.sub_mul]; omega
    omega

theorem row_outside {m : Mat α} (h : WF m) {r : Int} (hr : ¬ (1 ≤ r ∧ r ≤ m.rows)) :
    m.index r 1 1 < 0 ∨ (m.elem.length : Int) ≤ m.index r 1 1 := by
  have hc := h.cols1; have hs := h.shel1
  have hcs : 1 ≤ m.cols * m.shel := by
    have : 1 * 1 ≤ m.cols * m.shel := Int.mul_le_mul hc hs (by omega) (by omega)
    omega
  unfold index; rw [idx_eq, h.size]
  simp only [Int.sub_self, Int.add_zero, Int.mul_assoc]
  by_cases h1 : r < 1
  · left
    have : (r - 1) * (m.cols * m.shel) ≤ (-1) * (m.cols * m.shel) := Int.mul_le_mul_of_nonneg_right (by omega) (by omega)
    omega
  · right
    exact Int.mul_le_mul_of_nonneg_right (by omega) (by omega)

theorem write_cases (b : Buf α) (p : Int) (v : α) :
    b.write p v = .ub ∨ ∃ b', b.write p v = .ok b' ∧ b'.length = b.length := by
  unfold Buf.write; split
  · right; exact ⟨_, rfl, by simp⟩
  · left; rfl

theorem write_out {b : Buf α} {p : Int} (v : α) (h : p < 0 ∨ (b.length : Int) ≤ p) : b.write p v = .ub := by
  unfold Buf.write; rw [if_neg (by omega)]

theorem read_cases (b : Buf α) (p : Int) : b.read p = .ub ∨ ∃ v, b.read p = .ok v := by
  unfold Buf.read
  split
  · left; rfl
  · split
    · right; exact ⟨_, rfl⟩
    · left; rfl

theorem read_out {b : Buf α} {p : Int} (h : p < 0 ∨ (b.length : Int) ≤ p) : b.read p = .ub := by
  unfold Buf.read
  split
  · rfl
  · rw [List.getElem?_eq_none (by omega)]

/-- C93, `get_col`: a column of the matrix is returned from top to bottom, from shelf 1; any other number makes the
call read outside the buffer. -/
theorem C93_get_col {m : Mat α} (h : WF m) (c : Int) :
    (1 ≤ c → c ≤ m.cols → ∃ v, m.getColVec c = .ok v ∧ (v.length : Int) = m.rows ∧
      ∀ i (n : Nat) (hn : n < v.length), i = (n : Int) + 1 → m.getElem2 i c = .ok v[n]) ∧
    (c < 1 ∨ m.cols < c → m.getColVec c = .ub) := by
  constructor
  · intro h1 h2
    obtain ⟨f, hf⟩ := h.exists_isMat
    have hr := h.rows1
    refine ⟨_, getColVec_ok hf h.shel1 h1 h2, by simp; omega, ?_⟩
    intro i n hn hi
    simp only [List.length_map, length_irange] at hn
    rw [hf.get2 h.shel1 (by omega) (by omega) h1 h2]
    simp only [List.getElem_map, getElem_irange]
    rw [hi, Int.add_comm]
  · intro hc
    obtain ⟨i, h1, h2, hout⟩ := col_outside h (c := c) (by omega)
    unfold getColVec
    refine foldlM_fail (by intro f; rfl) (fun _ => True) _ _ ?_ ?_ trivial
    · intro x _ acc _
      rcases read_cases m.elem (m.index x c 1) with e | ⟨v, e⟩
      · left; rw [e]; rfl
      · right; rw [e]; exact ⟨_, rfl, trivial⟩
    · exact ⟨i, mem_irange.2 ⟨h1, h2⟩, fun acc _ => by rw [read_out hout]; rfl⟩

/-- C93, `get_row`: likewise for rows. -/
theorem C93_get_row {m : Mat α} (h : WF m) (r : Int) :
    (1 ≤ r → r ≤ m.rows → ∃ v, m.getRowVec r = .ok v ∧ (v.length : Int) = m.cols ∧
      ∀ j (n : Nat) (hn : n < v.length), j = (n : Int) + 1 → m.getElem2 r j = .ok v[n]) ∧
    (r < 1 ∨ m.rows < r → m.getRowVec r = .ub) := by
  constructor
  · intro h1 h2
    obtain ⟨f, hf⟩ := h.exists_isMat
    have hc := h.cols1
    refine ⟨_, getRowVec_ok hf h.shel1 h1 h2, by simp; omega, ?_⟩
    intro i n hn hi
    simp only [List.length_map, length_irange] at hn
    rw [hf.get2 h.shel1 h1 h2 (by omega) (by omega)]
    simp only [List.getElem_map, getElem_irange]
    rw [hi, Int.add_comm]
  · intro hc
    have hout := row_outside h (r := r) (by omega)
    unfold getRowVec
    rw [forRange_cons h.cols1, read_out hout]; rfl

/-- C93, `set_col`, for every shape, vector and column number: a vector whose length is not the number of *columns* is
refused; otherwise a number outside `1..cols` makes the call write outside the buffer; otherwise, if there are more
rows than columns, the call throws `out_of_range`; otherwise the first `rows` values of the vector go into column `c`
of shelf 1 and nothing else changes. -/
theorem C93_set_col [Zero α] {m : Mat α} (h : WF m) (v : List α) (c : Int) :
    ((v.length : Int) ≠ m.cols → m.setCol v c = .throw .invalidArgument) ∧
    ((v.length : Int) = m.cols → c < 1 ∨ m.cols < c → m.setCol v c = .ub) ∧
    ((v.length : Int) = m.cols → 1 ≤ c → c ≤ m.cols → m.cols < m.rows → m.setCol v c = .throw .outOfRange) ∧
    ((v.length : Int) = m.cols → 1 ≤ c → c ≤ m.cols → m.rows ≤ m.cols →
      ∃ m', m.setCol v c = .ok m' ∧ WF m' ∧ m'.rows = m.rows ∧ m'.cols = m.cols ∧ m'.shel = m.shel ∧
        (∀ (n : Nat) (hn : n < v.length), (n : Int) < m.rows → m'.getElem3 ((n : Int) + 1) c 1 = .ok v[n]) ∧
        (∀ i j k, j ≠ c ∨ k ≠ 1 → m'.getElem3 i j k = m.getElem3 i j k)) := by
  refine ⟨fun hv => ?_, fun hv hc => ?_, fun hv h1 h2 ht => C14_tall_throws h ht v c ⟨h1, h2⟩ hv, fun hv h1 h2 hrc => ?_⟩
  · unfold setCol; rw [if_pos (by omega)]
  · unfold setCol; rw [if_neg (by omega)]
    obtain ⟨i, i1, i2, hout⟩ := col_outside h (c := c) (by omega)
    by_cases hc1 : c < 1
    · -- the very first write is before the buffer
      rw [forRange_cons h.rows1, if_pos (by omega), vecAt_ok (n := 0) (by omega) rfl (by have := h.cols1; omega)]
      simp only [Res.ok_bind]
      rw [write_out]
      · rfl
      · left
        unfold index; rw [idx_eq]
        have hs := h.shel1
        have : (c - 1) * m.shel ≤ (-1) * m.shel := Int.mul_le_mul_of_nonneg_right (by omega) (by omega)
        simp only [Int.sub_self, Int.zero_mul, Int.zero_add]; omega
    · have hcc : ¬ c ≤ m.cols := by omega
      refine foldlM_fail (by intro f; rfl) (fun m' : Mat α => m'.cols = m.cols ∧ m'.shel = m.shel ∧
        m'.elem.length = m.elem.length) _ _ ?_ ?_ ⟨rfl, rfl, rfl⟩
      · rintro x _ m' ⟨e1, e2, e3⟩
        rw [e1, if_neg hcc]
        rcases write_cases m'.elem (m'.index x c 1) 0 with e | ⟨b', e, hb⟩
        · left; rw [e]; rfl
        · right; rw [e]; exact ⟨_, rfl, rfl, e2, by rw [← e3, ← hb]⟩
      · refine ⟨i, mem_irange.2 ⟨i1, i2⟩, ?_⟩
        rintro m' ⟨e1, e2, e3⟩
        rw [e1, if_neg hcc, write_out]
        · rfl
        · unfold index at *; rw [e1, e2, e3]; exact hout
  · obtain ⟨f, hf⟩ := h.exists_isMat
    have : Inhabited α := ⟨f 1 1 1⟩
    obtain ⟨m', e, hm⟩ := setCol_isMat hf h.shel1 hrc h1 h2 (v := v) hv
    refine ⟨m', e, hm.wf h.rows1 h.cols1 h.shel1, hm.rows, hm.cols, hm.shel, ?_, ?_⟩
    · intro n hn hnr
      rw [hm.get3 ⟨by omega, by omega, h1, h2, by omega, h.shel1⟩, if_pos ⟨rfl, rfl⟩]
      have : ((n : Int) + 1 - 1).toNat = n := by omega
      rw [this, getElem!_pos v n hn]
    · intro i j k hjk
      rw [hm.get3_eq, hf.get3_eq, if_neg (by omega : ¬ (j = c ∧ k = 1))]

/-- C93, `set_row`, for every shape, vector and row number. -/
theorem C93_set_row [Zero α] {m : Mat α} (h : WF m) (v : List α) (r : Int) :
    ((v.length : Int) ≠ m.cols → m.setRow v r = .throw .invalidArgument) ∧
    ((v.length : Int) = m.cols → r < 1 ∨ m.rows < r → m.setRow v r = .ub) ∧
    ((v.length : Int) = m.cols → 1 ≤ r → r ≤ m.rows →
      ∃ m', m.setRow v r = .ok m' ∧ WF m' ∧ m'.rows = m.rows ∧ m'.cols = m.cols ∧ m'.shel = m.shel ∧
        (∀ (n : Nat) (hn : n < v.length), m'.getElem3 r ((n : Int) + 1) 1 = .ok v[n]) ∧
        (∀ i j k, i ≠ r ∨ k ≠ 1 → m'.getElem3 i j k = m.getElem3 i j k)) := by
  refine ⟨fun hv => ?_, fun hv hr => ?_, fun hv h1 h2 => ?_⟩
  · unfold setRow; rw [if_pos (by omega)]
  · unfold setRow; rw [if_neg (by omega), forRange_cons h.cols1]
    have hout := row_outside h (r := r) (by omega)
    split
    · rw [vecAt_ok (n := 0) (by omega) rfl (by have := h.cols1; omega)]
      simp only [Res.ok_bind]
      rw [write_out _ hout]; rfl
    · rw [write_out _ hout]; rfl
  · obtain ⟨f, hf⟩ := h.exists_isMat
    have : Inhabited α := ⟨f 1 1 1⟩
    obtain ⟨m', e, hm⟩ := setRow_isMat hf h.shel1 h1 h2 (v := v) hv
    refine ⟨m', e, hm.wf h.rows1 h.cols1 h.shel1, hm.rows, hm.cols, hm.shel, ?_, ?_⟩
    · intro n hn
      rw [hm.get3 ⟨h1, h2, by omega, by omega, by omega, h.shel1⟩, if_pos ⟨rfl, rfl⟩]
      have : ((n : Int) + 1 - 1).toNat = n := by omega
      rw [this, getElem!_pos v n hn]
    · intro i j k hjk
      rw [hm.get3_eq, hf.get3_eq, if_neg (by omega : ¬ (i = r ∧ k = 1))]

/-- C93, `swap_col`, for every shape and every pair of numbers: equal numbers change nothing (even numbers of no
column); a number of no column makes the call read outside the buffer; a non-square matrix is refused; in a square
matrix the two columns of shelf 1 are exchanged and nothing else changes. -/
theorem C93_swap_col [Zero α] {m : Mat α} (h : WF m) (a b : Int) :
    (a = b → m.swapCol a b = .ok m) ∧
    (a ≠ b → ¬ (1 ≤ a ∧ a ≤ m.cols ∧ 1 ≤ b ∧ b ≤ m.cols) → m.swapCol a b = .ub) ∧
    (a ≠ b → 1 ≤ a ∧ a ≤ m.cols ∧ 1 ≤ b ∧ b ≤ m.cols → m.rows ≠ m.cols → m.swapCol a b = .throw .invalidArgument) ∧
    (a ≠ b → 1 ≤ a ∧ a ≤ m.cols ∧ 1 ≤ b ∧ b ≤ m.cols → m.rows = m.cols →
      ∃ m', m.swapCol a b = .ok m' ∧ WF m' ∧ m'.rows = m.rows ∧ m'.cols = m.cols ∧ m'.shel = m.shel ∧
        (∀ i, m'.getElem3 i a 1 = m.getElem3 i b 1 ∧ m'.getElem3 i b 1 = m.getElem3 i a 1) ∧
        (∀ i j k, (j ≠ a ∧ j ≠ b) ∨ k ≠ 1 → m'.getElem3 i j k = m.getElem3 i j k)) := by
  refine ⟨fun e => by unfold swapCol; rw [if_pos e], fun hab hr => ?_, fun hab hr hsq =>
    C15_swap_col_refuted h hsq a b hab ⟨hr.1, hr.2.1⟩ hr.2.2, fun hab hr hsq => ?_⟩
  · unfold swapCol; rw [if_neg hab]
    by_cases ha : 1 ≤ a ∧ a ≤ m.cols
    · obtain ⟨v, e, _⟩ := (C93_get_col h a).1 ha.1 ha.2
      rw [e]; simp only [Res.ok_bind]
      rw [(C93_get_col h b).2 (by omega)]; rfl
    · rw [(C93_get_col h a).2 (by omega)]; rfl
  · obtain ⟨f, hf⟩ := h.exists_isMat
    rw [← hsq] at hf hr
    obtain ⟨m', e, hm⟩ := swapCol_isMat hf h.shel1 h.rows1 hr.1 hr.2.1 hr.2.2.1 hr.2.2.2
    refine ⟨m', e, hm.wf h.rows1 h.rows1 h.shel1, hm.rows, by rw [hm.cols, hsq], hm.shel, ?_, ?_⟩
    · intro i
      rw [hm.get3_eq, hf.get3_eq, hm.get3_eq, hf.get3_eq]
      simp only [if_true, if_neg (Ne.symm hab)]
      constructor <;> (congr 1; unfold InR; apply propext; omega)
    · intro i j k hjk
      rw [hm.get3_eq, hf.get3_eq]
      rcases hjk with ⟨ja, jb⟩ | hk
      · simp [ja, jb]
      · simp [hk]

/-- C93, `swap_row`, for every shape and every pair of numbers. -/
theorem C93_swap_row [Zero α] {m : Mat α} (h : WF m) (a b : Int) :
    (a = b → m.swapRow a b = .ok m) ∧
    (a ≠ b → ¬ (1 ≤ a ∧ a ≤ m.rows ∧ 1 ≤ b ∧ b ≤ m.rows) → m.swapRow a b = .ub) ∧
    (a ≠ b → 1 ≤ a ∧ a ≤ m.rows ∧ 1 ≤ b ∧ b ≤ m.rows →
      ∃ m', m.swapRow a b = .ok m' ∧ WF m' ∧ m'.rows = m.rows ∧ m'.cols = m.cols ∧ m'.shel = m.shel ∧
        (∀ j, m'.getElem3 a j 1 = m.getElem3 b j 1 ∧ m'.getElem3 b j 1 = m.getElem3 a j 1) ∧
        (∀ i j k, (i ≠ a ∧ i ≠ b) ∨ k ≠ 1 → m'.getElem3 i j k = m.getElem3 i j k)) := by
  refine ⟨fun e => by unfold swapRow; rw [if_pos e], fun hab hr => ?_, fun hab hr => ?_⟩
  · unfold swapRow; rw [if_neg hab]
    by_cases ha : 1 ≤ a ∧ a ≤ m.rows
    · obtain ⟨v, e, _⟩ := (C93_get_row h a).1 ha.1 ha.2
      rw [e]; simp only [Res.ok_bind]
      rw [(C93_get_row h b).2 (by omega)]; rfl
    · rw [(C93_get_row h a).2 (by omega)]; rfl
  · obtain ⟨f, hf⟩ := h.exists_isMat
    obtain ⟨m', e, hm⟩ := swapRow_isMat hf h.shel1 h.cols1 hr.1 hr.2.1 hr.2.2.1 hr.2.2.2
    refine ⟨m', e, hm.wf h.rows1 h.cols1 h.shel1, hm.rows, hm.cols, hm.shel, ?_, ?_⟩
    · intro i
      rw [hm.get3_eq, hf.get3_eq, hm.get3_eq, hf.get3_eq]
      simp only [if_true, if_neg (Ne.symm hab)]
      constructor <;> (congr 1; unfold InR; apply propext; omega)
    · intro i j k hjk
      rw [hm.get3_eq, hf.get3_eq]
      rcases hjk with ⟨ja, jb⟩ | hk
      · simp [ja, jb]
      · simp [hk]

/-- A loop whose iterations all succeed or end the process, with one that must end it, ends it. -/
theorem exit_of_get {σ : Type} {L : List Int} (body : σ → Int → Res σ) (Q : σ → Prop)
    (step : ∀ x ∈ L, ∀ s, Q s → body s x = .exit 1 ∨ ∃ s', body s x = .ok s' ∧ Q s')
    (bad : ∃ x ∈ L, ∀ s, Q s → body s x = .exit 1) {s : σ} (h : Q s) : L.foldlM body s = .exit 1 :=
  foldlM_fail (by intro f; rfl) Q body L step bad h

/-- One inner loop of `move_col` when the source column does not exist. -/
theorem copyCol_exit {m : Mat α} {r c s f} (h : IsMat m r c s f) (hs : 1 ≤ s) (hr : 1 ≤ r) {a b : Int}
    (ha : ¬ (1 ≤ a ∧ a ≤ c)) :
    forRange 1 m.rows m (fun m i => do let v ← m.getElem2 i a; m.setElem2 v i b) = .exit 1 := by
  rw [h.rows, forRange_cons hr, h.get2_eq hs, if_neg (by omega)]; rfl

theorem copyRow_exit {m : Mat α} {r c s f} (h : IsMat m r c s f) (hs : 1 ≤ s) (hc : 1 ≤ c) {a b : Int}
    (ha : ¬ (1 ≤ a ∧ a ≤ r)) :
    forRange 1 m.cols m (fun m i => do let v ← m.getElem2 a i; m.setElem2 v b i) = .exit 1 := by
  rw [h.cols, forRange_cons hc, h.get2_eq hs, if_neg (by omega)]; rfl

/-- The shifting loop of `move_col` towards a column that does not exist. -/
theorem moveColLoop_exit {m : Mat α} {r c s f} (h : IsMat m r c s f) (hs : 1 ≤ s) (hr : 1 ≤ r) (L : List Int) (d : Int)
    (hd : d = 1 ∨ d = -1) (hbad : ∃ x ∈ L, ¬ (1 ≤ x + d ∧ x + d ≤ c)) (hL : ∀ x ∈ L, 1 ≤ x + d ∧ x + d ≤ c → 1 ≤ x ∧ x ≤ c) :
    L.foldlM (fun (m : Mat α) x => forRange 1 m.rows m fun m i => do let v ← m.getElem2 i (x + d); m.setElem2 v i x) m =
      .exit 1 := by
  refine exit_of_get _ (fun m' : Mat α => ∃ g, IsMat m' r c s g) ?_ ?_ ⟨f, h⟩
  · rintro x hx m' ⟨g, hg⟩
    by_cases hin : 1 ≤ x + d ∧ x + d ≤ c
    · right
      obtain ⟨x1, x2⟩ := hL x hx hin
      obtain ⟨m2, e2, h2⟩ := copyColLoop hg hs (a := x + d) (b := x) (by omega) hin.1 hin.2 x1 x2
      exact ⟨m2, e2, _, h2⟩
    · left; exact copyCol_exit hg hs hr hin
  · obtain ⟨x, hx, hin⟩ := hbad
    exact ⟨x, hx, fun m' ⟨g, hg⟩ => copyCol_exit hg hs hr hin⟩

theorem moveRowLoop_exit {m : Mat α} {r c s f} (h : IsMat m r c s f) (hs : 1 ≤ s) (hc : 1 ≤ c) (L : List Int) (d : Int)
    (hd : d = 1 ∨ d = -1) (hbad : ∃ x ∈ L, ¬ (1 ≤ x + d ∧ x + d ≤ r)) (hL : ∀ x ∈ L, 1 ≤ x + d ∧ x + d ≤ r → 1 ≤ x ∧ x ≤ r) :
    L.foldlM (fun (m : Mat α) x => forRange 1 m.cols m fun m i => do let v ← m.getElem2 (x + d) i; m.setElem2 v x i) m =
      .exit 1 := by
  refine exit_of_get _ (fun m' : Mat α => ∃ g, IsMat m' r c s g) ?_ ?_ ⟨f, h⟩
  · rintro x hx m' ⟨g, hg⟩
    by_cases hin : 1 ≤ x + d ∧ x + d ≤ r
    · right
      obtain ⟨x1, x2⟩ := hL x hx hin
      obtain ⟨m2, e2, h2⟩ := copyRowLoop hg hs (a := x + d) (b := x) (by omega) hin.1 hin.2 x1 x2
      exact ⟨m2, e2, _, h2⟩
    · left; exact copyRow_exit hg hs hc hin
  · obtain ⟨x, hx, hin⟩ := hbad
    exact ⟨x, hx, fun m' ⟨g, hg⟩ => copyRow_exit hg hs hc hin⟩

/-- The shifting loop of `move_col` between existing columns succeeds and keeps the shape. -/
theorem moveColLoop_ok {m : Mat α} {r c s f} (h : IsMat m r c s f) (hs : 1 ≤ s) (L : List Int) (d : Int)
    (hd : d = 1 ∨ d = -1) (hL : ∀ x ∈ L, 1 ≤ x + d ∧ x + d ≤ c ∧ 1 ≤ x ∧ x ≤ c) :
    ∃ m' g, L.foldlM (fun (m : Mat α) x => forRange 1 m.rows m fun m i => do let v ← m.getElem2 i (x + d); m.setElem2 v i x) m =
      .ok m' ∧ IsMat m' r c s g := by
  induction L generalizing m f with
  | nil => exact ⟨m, f, rfl, h⟩
  | cons x L ih =>
    obtain ⟨a1, a2, a3, a4⟩ := hL x (by simp)
    obtain ⟨m2, e2, h2⟩ := copyColLoop h hs (a := x + d) (b := x) (by omega) a1 a2 a3 a4
    obtain ⟨m3, g, e3, h3⟩ := ih h2 (fun y hy => hL y (by simp [hy]))
    exact ⟨m3, g, by rw [List.foldlM_cons, e2]; exact e3, h3⟩

/-- C93, `move_col`, for every shape and every pair of numbers: equal numbers change nothing; a source that is no column
makes the call read outside the buffer; a target that is no column ends the process; a non-square matrix is refused; in
a square matrix old column `a` goes to position `b`, the columns between move one place towards `a`, and nothing else
changes. -/
theorem C93_move_col [Zero α] {m : Mat α} (h : WF m) (a b : Int) :
    (a = b → m.moveCol a b = .ok m) ∧
    (a ≠ b → ¬ (1 ≤ a ∧ a ≤ m.cols) → m.moveCol a b = .ub) ∧
    (a ≠ b → 1 ≤ a ∧ a ≤ m.cols → ¬ (1 ≤ b ∧ b ≤ m.cols) → m.moveCol a b = .exit 1) ∧
    (a ≠ b → 1 ≤ a ∧ a ≤ m.cols → 1 ≤ b ∧ b ≤ m.cols → m.rows ≠ m.cols → m.moveCol a b = .throw .invalidArgument) ∧
    (a ≠ b → 1 ≤ a ∧ a ≤ m.cols → 1 ≤ b ∧ b ≤ m.cols → m.rows = m.cols →
      ∃ m', m.moveCol a b = .ok m' ∧ WF m' ∧ m'.rows = m.rows ∧ m'.cols = m.cols ∧ m'.shel = m.shel ∧
        (∀ i, m'.getElem3 i b 1 = m.getElem3 i a 1) ∧
        (∀ i j, a ≤ j → j < b → m'.getElem3 i j 1 = m.getElem3 i (j + 1) 1) ∧
        (∀ i j, b < j → j ≤ a → m'.getElem3 i j 1 = m.getElem3 i (j - 1) 1) ∧
        (∀ i j k, (j < a ∧ j < b) ∨ (a < j ∧ b < j) ∨ k ≠ 1 → m'.getElem3 i j k = m.getElem3 i j k)) := by
  obtain ⟨f, hf⟩ := h.exists_isMat
  have ediff : ∀ x : Int, x - 1 = x + -1 := fun x => by omega
  refine ⟨fun e => by unfold moveCol; rw [if_pos e], fun hab ha => ?_, fun hab ha hb => ?_, fun hab ha hb hsq => ?_,
    fun hab ha hb hsq => ?_⟩
  · unfold moveCol; rw [if_neg hab, (C93_get_col h a).2 (by omega)]; rfl
  · unfold moveCol; rw [if_neg hab]
    obtain ⟨v, ev, _⟩ := (C93_get_col h a).1 ha.1 ha.2
    rw [ev]; simp only [Res.ok_bind]
    by_cases hlt : a < b
    · simp only [if_pos hlt]
      have := moveColLoop_exit hf h.shel1 h.rows1 (irange a (b - 1)) 1 (Or.inl rfl)
        ⟨m.cols, mem_irange.2 ⟨ha.2, by omega⟩, by omega⟩
        (fun x hx hin => ⟨by have := (mem_irange.1 hx).1; omega, by omega⟩)
      unfold forRange at this ⊢
      rw [this]; rfl
    · simp only [if_neg hlt]
      have := moveColLoop_exit hf h.shel1 h.rows1 ((irange (b + 1) a).reverse) (-1) (Or.inr rfl)
        ⟨1, List.mem_reverse.2 (mem_irange.2 ⟨by omega, ha.1⟩), by omega⟩
        (fun x hx hin => ⟨by omega, by have := (mem_irange.1 (List.mem_reverse.1 hx)).2; omega⟩)
      unfold forDown
      simp only [ediff]
      rw [this]; rfl
  · unfold moveCol; rw [if_neg hab]
    obtain ⟨v, ev, hvl, _⟩ := (C93_get_col h a).1 ha.1 ha.2
    rw [ev]; simp only [Res.ok_bind]
    by_cases hlt : a < b
    · simp only [if_pos hlt]
      obtain ⟨m', g, e, hg⟩ := moveColLoop_ok hf h.shel1 (irange a (b - 1)) 1 (Or.inl rfl)
        (fun x hx => by have := mem_irange.1 hx; omega)
      have e' : forRange a (b - 1) m (fun (m : Mat α) c =>
          forRange 1 m.rows m fun m r => do
            let v ← m.getElem2 r (c + 1)
            m.setElem2 v r c) = .ok m' := e
      rw [e']; simp only [Res.ok_bind]
      unfold setCol; rw [if_pos (by rw [hg.cols]; omega)]
    · simp only [if_neg hlt]
      obtain ⟨m', g, e, hg⟩ := moveColLoop_ok hf h.shel1 ((irange (b + 1) a).reverse) (-1) (Or.inr rfl)
        (fun x hx => by have := mem_irange.1 (List.mem_reverse.1 hx); omega)
      have e' : forDown a (b + 1) m (fun (m : Mat α) c =>
          forRange 1 m.rows m fun m r => do
            let v ← m.getElem2 r (c - 1)
            m.setElem2 v r c) = .ok m' := by unfold forDown; simp only [ediff]; exact e
      rw [e']; simp only [Res.ok_bind]
      unfold setCol; rw [if_pos (by rw [hg.cols]; omega)]
  · rw [← hsq] at hf ha hb
    obtain ⟨m', e, hm⟩ := moveCol_isMat hf h.shel1 h.rows1 ha.1 ha.2 hb.1 hb.2
    have key : ∀ i j, m'.getElem3 i j 1 = m.getElem3 i (moveSrc a b j) 1 := by
      intro i j
      rw [hm.get3_eq, hf.get3_eq]
      have := @moveSrc_range a b m.rows j ha hb
      simp only [if_true]
      congr 1; unfold InR; apply propext; omega
    refine ⟨m', e, hm.wf h.rows1 h.rows1 h.shel1, hm.rows, by rw [hm.cols, hsq], hm.shel, ?_, ?_, ?_, ?_⟩
    · intro i; rw [key]; congr 1; unfold moveSrc; simp
    · intro i j h1 h2; rw [key]; congr 1; unfold moveSrc; (repeat' split) <;> omega
    · intro i j h1 h2; rw [key]; congr 1; unfold moveSrc; (repeat' split) <;> omega
    · intro i j k h1
      by_cases hk : k = 1
      · subst hk; rw [key]; congr 1; unfold moveSrc; (repeat' split) <;> omega
      · rw [hm.get3_eq, hf.get3_eq, if_neg hk]

/-- C93, `move_row`, for every shape and every pair of numbers. -/
theorem C93_move_row [Zero α] {m : Mat α} (h : WF m) (a b : Int) :
    (a = b → m.moveRow a b = .ok m) ∧
    (a ≠ b → ¬ (1 ≤ a ∧ a ≤ m.rows) → m.moveRow a b = .ub) ∧
    (a ≠ b → 1 ≤ a ∧ a ≤ m.rows → ¬ (1 ≤ b ∧ b ≤ m.rows) → m.moveRow a b = .exit 1) ∧
    (a ≠ b → 1 ≤ a ∧ a ≤ m.rows → 1 ≤ b ∧ b ≤ m.rows →
      ∃ m', m.moveRow a b = .ok m' ∧ WF m' ∧ m'.rows = m.rows ∧ m'.cols = m.cols ∧ m'.shel = m.shel ∧
        (∀ j, m'.getElem3 b j 1 = m.getElem3 a j 1) ∧
        (∀ i j, a ≤ i → i < b → m'.getElem3 i j 1 = m.getElem3 (i + 1) j 1) ∧
        (∀ i j, b < i → i ≤ a → m'.getElem3 i j 1 = m.getElem3 (i - 1) j 1) ∧
        (∀ i j k, (i < a ∧ i < b) ∨ (a < i ∧ b < i) ∨ k ≠ 1 → m'.getElem3 i j k = m.getElem3 i j k)) := by
  obtain ⟨f, hf⟩ := h.exists_isMat
  have ediff : ∀ x : Int, x - 1 = x + -1 := fun x => by omega
  refine ⟨fun e => by unfold moveRow; rw [if_pos e], fun hab ha => ?_, fun hab ha hb => ?_, fun hab ha hb => ?_⟩
  · unfold moveRow; rw [if_neg hab, (C93_get_row h a).2 (by omega)]; rfl
  · unfold moveRow; rw [if_neg hab]
    obtain ⟨v, ev, _⟩ := (C93_get_row h a).1 ha.1 ha.2
    rw [ev]; simp only [Res.ok_bind]
    by_cases hlt : a < b
    · simp only [if_pos hlt]
      have := moveRowLoop_exit hf h.shel1 h.cols1 (irange a (b - 1)) 1 (Or.inl rfl)
        ⟨m.rows, mem_irange.2 ⟨ha.2, by omega⟩, by omega⟩
        (fun x hx hin => ⟨by have := (mem_irange.1 hx).1; omega, by omega⟩)
      unfold forRange at this ⊢
      rw [this]; rfl
    · simp only [if_neg hlt]
      have := moveRowLoop_exit hf h.shel1 h.cols1 ((irange (b + 1) a).reverse) (-1) (Or.inr rfl)
        ⟨1, List.mem_reverse.2 (mem_irange.2 ⟨by omega, ha.1⟩), by omega⟩
        (fun x hx hin => ⟨by omega, by have := (mem_irange.1 (List.mem_reverse.1 hx)).2; omega⟩)
      unfold forDown
      simp only [ediff]
      rw [this]; rfl
  · obtain ⟨m', e, hm⟩ := moveRow_isMat hf h.shel1 h.cols1 ha.1 ha.2 hb.1 hb.2
    have key : ∀ i j, m'.getElem3 i j 1 = m.getElem3 (moveSrc a b i) j 1 := by
      intro i j
      rw [hm.get3_eq, hf.get3_eq]
      have := @moveSrc_range a b m.rows i ha hb
      simp only [if_true]
      congr 1; unfold InR; apply propext; omega
    refine ⟨m', e, hm.wf h.rows1 h.cols1 h.shel1, hm.rows, hm.cols, hm.shel, ?_, ?_, ?_, ?_⟩
    · intro i; rw [key]; congr 1; unfold moveSrc; simp
    · intro i j h1 h2; rw [key]; congr 1; unfold moveSrc; (repeat' split) <;> omega
    · intro i j h1 h2; rw [key]; congr 1; unfold moveSrc; (repeat' split) <;> omega
    · intro i j k h1
      by_cases hk : k = 1
      · subst hk; rw [key]; congr 1; unfold moveSrc; (repeat' split) <;> omega
      · rw [hm.get3_eq, hf.get3_eq, if_neg hk]

/-- C93, `getCol`, for every shape and every number: a number of no column ends the process; so does every column of a
matrix with more rows than columns; otherwise the result is a column of `cols` rows, whose first `rows` entries are the
column and whose other entries are 0. -/
theorem C93_getCol [Zero α] {m : Mat α} (h : WF m) (C : Int) :
    (C < 1 ∨ m.cols < C → m.getCol C = .exit 1) ∧
    (1 ≤ C → C ≤ m.cols → m.cols < m.rows → m.getCol C = .exit 1) ∧
    (1 ≤ C → C ≤ m.cols → m.rows ≤ m.cols →
      ∃ m', m.getCol C = .ok m' ∧ WF m' ∧ m'.rows = m.cols ∧ m'.cols = 1 ∧ m'.shel = m.shel ∧
        (∀ i k, i ≤ m.rows → m'.getElem3 i 1 k = m.getElem3 i C k) ∧
        (∀ i k, m.rows < i → i ≤ m.cols → 1 ≤ k → k ≤ m.shel → m'.getElem3 i 1 k = .ok 0)) := by
  refine ⟨(C21_getCol_partial h C).2, fun h1 h2 ht => C21_refuted_tall h ht C ⟨h1, h2⟩, fun h1 h2 hrc => ?_⟩
  obtain ⟨f, hf⟩ := h.exists_isMat
  obtain ⟨m', e, hm⟩ := getCol_isMat hf h.cols1 h.shel1 hrc h1 h2
  refine ⟨m', e, hm.wf h.cols1 (by omega) h.shel1, hm.rows, hm.cols, hm.shel, ?_, ?_⟩
  · intro i k hi
    rw [hm.get3_eq, hf.get3_eq, if_pos hi]
    congr 1; unfold InR; apply propext; omega
  · intro i k i1 i2 k1 k2
    have := h.rows1
    rw [hm.get3 ⟨by omega, i2, by omega, by omega, k1, k2⟩, if_neg (by omega)]

example : WF ex23 ∧ ex23.setCol [7, 8, 9] 2 = .ok ⟨2, 3, 1, [some 1, some 7, some 3, some 4, some 8, some 6]⟩ := by decide
example : WF ex23 ∧ ex23.setCol [7, 8, 9] 4 = .ub ∧ ex23.setRow [7, 8, 9] 3 = .ub ∧ ex23.getColVec 0 = .ub := by decide
example : WF ex23 ∧ ex23.swapCol 9 9 = .ok ex23 ∧ ex23.swapCol 1 4 = .ub ∧ ex23.moveCol 1 4 = .exit 1 ∧
    ex23.moveCol 4 1 = .ub ∧ ex23.moveCol 3 1 = .throw .invalidArgument := by decide
example : (⟨2, 2, 1, [some 1, some 2, some 3, some 4]⟩ : Mat Int).moveCol 1 2 =
    .ok ⟨2, 2, 1, [some 2, some 1, some 4, some 3]⟩ := by decide
example : ex23.getCol 2 = .ok ⟨3, 1, 1, [some 2, some 5, some 0]⟩ := by decide

/-! ### C94 -/

/-- The buffer after a loop that writes the same value at every position of a list. -/
theorem fill_positions (z : α) (L : List Int) (b : Buf α) (hL : ∀ p ∈ L, 0 ≤ p ∧ p < b.length) :
    ∃ b', L.foldlM (fun (b : Buf α) p => b.write p z) b = .ok b' ∧ b'.length = b.length ∧
      ∀ n : Nat, b'[n]? = if (n : Int) ∈ L then some (some z) else b[n]? := by
  induction L generalizing b with
  | nil => exact ⟨b, rfl, rfl, fun n => by simp⟩
  | cons p L ih =>
    obtain ⟨p0, p1⟩ := hL p (by simp)
    obtain ⟨b', e, hl, hb⟩ := ih (b.set p.toNat (some z)) (fun q hq => by
      have := hL q (by simp [hq]); rw [List.length_set]; exact this)
    refine ⟨b', ?_, by simpa using hl, ?_⟩
    · rw [List.foldlM_cons]
      unfold Buf.write at e ⊢
      rw [if_pos ⟨p0, p1⟩]; exact e
    · intro n
      rw [hb n]
      by_cases hn : (n : Int) ∈ L
      · simp [hn]
      · rw [if_neg hn, List.getElem?_set]
        by_cases hp : p.toNat = n
        · have : (n : Int) = p := by omega
          rw [if_pos hp, if_pos (by omega), if_pos (by simp [this])]
        · have : ¬ (n : Int) = p := by omega
          rw [if_neg hp, if_neg (by simp [this, hn])]

/-- The zeroing loop of the three regrowing functions, with the *old* column and shelf numbers `C`, `S` in the index:
it fills the cells from the first one up to the largest index visited. -/
theorem regrow_zero [Zero α] (m : Mat α) (b : Buf α) (r c s : Int) (hr : 1 ≤ r) (hC : 1 ≤ m.cols) (hS : 1 ≤ m.shel)
    (hc : m.cols ≤ c) (hs : m.shel ≤ s) (htop : ((r - 1) * m.cols + (c - 1)) * m.shel + s ≤ b.length) :
    ∃ b', m.regrowLoop b r c s false = .ok b' ∧ b'.length = b.length ∧
      ∀ n : Nat, b'[n]? = if (n : Int) < ((r - 1) * m.cols + (c - 1)) * m.shel + s then some (some 0) else b[n]? := by
  unfold regrowLoop
  rw [forRange_nest3]
  simp only [Bool.false_eq_true, if_false]
  have hmap : ∀ (L : List (Int × Int × Int)) (b : Buf α),
      L.foldlM (fun (s : Buf α) p => s.write (m.index p.1 p.2.1 p.2.2) 0) b =
      (L.map (fun p => m.index p.1 p.2.1 p.2.2)).foldlM (fun (b : Buf α) p => b.write p 0) b := by
    intro L b; rw [List.foldlM_map]
  rw [hmap]
  have hle : ∀ i j k, 1 ≤ i ∧ i ≤ r → 1 ≤ j ∧ j ≤ c → 1 ≤ k ∧ k ≤ s →
      0 ≤ m.index i j k ∧ m.index i j k < ((r - 1) * m.cols + (c - 1)) * m.shel + s := by
    intro i j k hi hj hk
    unfold index; rw [idx_eq]
    have a1 : (i - 1) * m.cols ≤ (r - 1) * m.cols := Int.mul_le_mul_of_nonneg_right (by omega) (by omega)
    have a2 : ((i - 1) * m.cols + (j - 1)) * m.shel ≤ ((r - 1) * m.cols + (c - 1)) * m.shel :=
      Int.mul_le_mul_of_nonneg_right (by omega) (by omega)
    have a3 : 0 ≤ (i - 1) * m.cols := Int.mul_nonneg (by omega) (by omega)
    have a4 : 0 ≤ ((i - 1) * m.cols + (j - 1)) * m.shel := Int.mul_nonneg (by omega) (by omega)
    omega
  obtain ⟨b', e, hl, hb⟩ := fill_positions (0 : α) (List.map (fun (p : Int × Int × Int) => m.index p.1 p.2.1 p.2.2)
      ((irange 1 r).flatMap fun i => (irange 1 c).flatMap fun j => (irange 1 s).map fun k => (i, j, k))) b (by
    intro p hp
    obtain ⟨⟨i, j, k⟩, hx, rfl⟩ := List.mem_map.1 hp
    obtain ⟨hi, hj, hk⟩ := mem_triples.1 hx
    have := hle i j k hi hj hk
    dsimp only
    omega)
  refine ⟨b', e, hl, fun n => ?_⟩
  rw [hb n]
  congr 1
  apply propext
  constructor
  · intro hm
    obtain ⟨⟨i, j, k⟩, hx, hp⟩ := List.mem_map.1 hm
    obtain ⟨hi, hj, hk⟩ := mem_triples.1 hx
    have := hle i j k hi hj hk
    dsimp only at hp
    omega
  · intro hn
    suffices ∃ i j k, (1 ≤ i ∧ i ≤ r) ∧ (1 ≤ j ∧ j ≤ c) ∧ (1 ≤ k ∧ k ≤ s) ∧ m.index i j k = n by
      obtain ⟨i, j, k, hi, hj, hk, hp⟩ := this
      exact List.mem_map.2 ⟨(i, j, k), mem_triples.2 ⟨hi, hj, hk⟩, hp⟩
    -- the shelf-wise position q of n, capped at the last visited one
    by_cases hq : (n : Int) < ((r - 1) * m.cols + (c - 1)) * m.shel
    · obtain ⟨q, k, hq0, hq1, hk0, hk1, e⟩ := mulAdd_surj (a := (r - 1) * m.cols + (c - 1)) (s := m.shel) (n := (n : Int))
        (by omega) (by omega) hq
      by_cases hqq : q < (r - 1) * m.cols
      · obtain ⟨i, j, hi0, hi1, hj0, hj1, e2⟩ := mulAdd_surj (a := r - 1) (s := m.cols) (n := q) (by omega) (by omega) hqq
        refine ⟨i + 1, j + 1, k + 1, by omega, by omega, by omega, ?_⟩
        unfold index; rw [idx_eq]
        simp only [Int.add_sub_cancel]
        rw [← e2]; omega
      · refine ⟨r, q - (r - 1) * m.cols + 1, k + 1, by omega, by omega, by omega, ?_⟩
        unfold index; rw [idx_eq]
        have e2 : (r - 1) * m.cols + (q - (r - 1) * m.cols + 1 - 1) = q := by omega
        rw [e2]; omega
    · refine ⟨r, c, n - ((r - 1) * m.cols + (c - 1)) * m.shel + 1, by omega, by omega, by omega, ?_⟩
      unfold index; rw [idx_eq]; omega

theorem flatMap_nothing {β γ : Type} (L : List β) : L.flatMap (fun _ => ([] : List γ)) = [] := by
  induction L with
  | nil => rfl
  | cons a L ih => simpa using ih

/-- Reading a matrix from what its buffer holds. -/
theorem get3_of_buf {m : Mat α} {z : α} {top : Int} (hlen : (m.elem.length : Int) = m.rows * m.cols * m.shel)
    (hb : ∀ n : Nat, (n : Int) < m.elem.length → m.elem[n]? = if (n : Int) < top then some (some z) else some none)
    {i j k : Int} (hi : InR m.rows m.cols m.shel i j k) :
    m.getElem3 i j k = if m.index i j k < top then .ok z else .ub := by
  have hbd := idx_bounds hi
  obtain ⟨h1, h2, h3, h4, h5, h6⟩ := hi
  unfold getElem3
  rw [if_neg (by omega), if_neg (by omega), if_neg (by omega), if_neg (by omega), if_neg (by omega), if_neg (by omega)]
  unfold Buf.read
  unfold index
  rw [if_neg (by omega), hb _ (by omega)]
  have : (((idx m.cols m.shel i j k).toNat : Nat) : Int) = idx m.cols m.shel i j k := by omega
  rw [this]
  by_cases ht : idx m.cols m.shel i j k < top
  · rw [if_pos ht, if_pos ht]
  · rw [if_neg ht, if_neg ht]

/-- C94, `set_rows`: a negative number ends the process; a number that is not larger keeps the remaining rows; a larger
one sets the whole matrix to 0. -/
theorem C94_set_rows [Zero α] {m : Mat α} (h : WF m) (r : Int) :
    (r < 0 → m.setRows r = .exit 1) ∧
    (0 ≤ r → r ≤ m.rows → ∃ m', m.setRows r = .ok m' ∧ Init m' ∧ m'.rows = r ∧ m'.cols = m.cols ∧ m'.shel = m.shel ∧
      ∀ i j k, i ≤ r → m'.getElem3 i j k = m.getElem3 i j k) ∧
    (m.rows < r → ∃ m', m.setRows r = .ok m' ∧ WF m' ∧ m'.rows = r ∧ m'.cols = m.cols ∧ m'.shel = m.shel ∧
      ∀ i j k, 1 ≤ i → i ≤ r → 1 ≤ j → j ≤ m.cols → 1 ≤ k → k ≤ m.shel → m'.getElem3 i j k = .ok 0) := by
  refine ⟨C17_negative m r, C17_set_rows_partial h r, fun hr => ?_⟩
  obtain ⟨f, hf⟩ := h.exists_isMat
  obtain ⟨m', e, hm⟩ := setRows_grow_isMat hf hr
  have := h.rows1
  exact ⟨m', e, hm.wf (by omega) h.cols1 h.shel1, hm.rows, hm.cols, hm.shel,
    fun i j k a b c d e f => hm.get3 ⟨a, b, c, d, e, f⟩⟩

/-- C94, `set_cols`: a negative number ends the process; the same number changes nothing; 0 gives a matrix without
columns; a smaller number keeps the remaining columns of a one-row matrix and writes outside the buffer otherwise; a
larger number `c` loses every element: in the order row by row, the first `(rows-1)*cols + c` positions become 0 and the
others hold no value at all. -/
theorem C94_set_cols [Zero α] {m : Mat α} (h : WF m) (c : Int) :
    (c < 0 → m.setCols c = .exit 1) ∧
    (c = m.cols → m.setCols c = .ok m) ∧
    (c = 0 → m.setCols c = .ok { m with cols := 0, elem := [] }) ∧
    (1 ≤ c → c < m.cols → 2 ≤ m.rows → m.setCols c = .ub) ∧
    (1 ≤ c → c < m.cols → m.rows = 1 →
      ∃ m', m.setCols c = .ok m' ∧ WF m' ∧ m'.rows = 1 ∧ m'.cols = c ∧ m'.shel = m.shel ∧
        ∀ i j k, j ≤ c → m'.getElem3 i j k = m.getElem3 i j k) ∧
    (m.cols < c → ∃ m', m.setCols c = .ok m' ∧ m'.rows = m.rows ∧ m'.cols = c ∧ m'.shel = m.shel ∧
      ∀ i j k, 1 ≤ i → i ≤ m.rows → 1 ≤ j → j ≤ c → 1 ≤ k → k ≤ m.shel →
        m'.getElem3 i j k = if (i - 1) * c + j ≤ (m.rows - 1) * m.cols + c then .ok 0 else .ub) := by
  have hr := h.rows1; have hcc := h.cols1; have hs := h.shel1
  refine ⟨C18_negative m c, fun e => ?_, fun e => ?_, fun h1 h2 h3 => C18_shrink_overflow h h3 c h1 h2, fun h1 h2 h3 => ?_,
    fun hc => ?_⟩
  · unfold setCols; rw [if_neg (by omega), if_neg (by omega), if_neg (by omega)]
  · subst e
    unfold setCols; rw [if_neg (by omega), if_neg (by omega), if_pos (by omega)]
    have : m.regrowLoop (Buf.alloc (m.rows * 0 * m.shel)) m.rows 0 m.shel true = .ok [] := by
      unfold regrowLoop
      rw [forRange_nest3]
      simp only [irange_empty (show (0 : Int) < 1 by omega), List.map_nil, List.flatMap_nil, flatMap_nothing]
      simp [Buf.alloc]
    rw [this]; rfl
  · obtain ⟨m', e, hi, a, b, c', d⟩ := C18_set_cols_partial h c (by omega) (Or.inr ⟨h3, by omega⟩)
    exact ⟨m', e, ⟨hi, by omega, by omega, by omega⟩, by omega, b, c', d⟩
  · have hN : 0 ≤ m.rows * c * m.shel := Int.mul_nonneg (Int.mul_nonneg (by omega) (by omega)) (by omega)
    have hle : (m.rows - 1) * m.cols + c ≤ m.rows * c := by
      have : (m.rows - 1) * m.cols ≤ (m.rows - 1) * c := Int.mul_le_mul_of_nonneg_left (by omega) (by omega)
      rw [Int.sub_mul (m.rows) 1 c] at this
      omega
    have e0 : ((m.rows - 1) * m.cols + (c - 1)) * m.shel + m.shel = ((m.rows - 1) * m.cols + c) * m.shel := by
      have : (m.rows - 1) * m.cols + c = ((m.rows - 1) * m.cols + (c - 1)) + 1 := by omega
      rw [this, Int.add_mul _ 1, Int.one_mul]
    have htop : ((m.rows - 1) * m.cols + c) * m.shel ≤ m.rows * c * m.shel := Int.mul_le_mul_of_nonneg_right hle (by omega)
    have hal : ((Buf.alloc (m.rows * c * m.shel) : Buf α).length : Int) = m.rows * c * m.shel := by
      simp only [Buf.alloc, List.length_replicate]; omega
    obtain ⟨b', e, hl, hb⟩ := regrow_zero m (Buf.alloc (m.rows * c * m.shel)) m.rows c m.shel hr hcc hs (by omega) (by omega)
      (by rw [hal, e0]; exact htop)
    refine ⟨{ m with cols := c, elem := b' }, ?_, rfl, rfl, rfl, ?_⟩
    · unfold setCols
      rw [if_neg (by omega), if_pos (by omega)]
      have : decide (c ≤ m.cols) = false := by simp; omega
      rw [this, e]; rfl
    · intro i j k h1 h2 h3 h4 h5 h6
      rw [get3_of_buf (m := { m with cols := c, elem := b' }) (z := (0 : α)) (top := ((m.rows - 1) * m.cols + c) * m.shel)
        (by simp only; rw [hl, hal]) _ ⟨h1, h2, h3, h4, h5, h6⟩]
      · congr 1
        unfold index; rw [idx_eq]
        simp only
        apply propext
        generalize (m.rows - 1) * m.cols + c = T
        generalize eq : (i - 1) * c + (j - 1) = q
        constructor
        · intro hlt
          have : q < T := by
            apply Int.lt_of_not_ge
            intro hge
            have := Int.mul_le_mul_of_nonneg_right (c := m.shel) (show T ≤ q from hge) (by omega)
            omega
          omega
        · intro hle
          have : (q + 1) * m.shel ≤ T * m.shel := Int.mul_le_mul_of_nonneg_right (by omega) (by omega)
          rw [Int.add_mul] at this
          omega
      · intro n hn
        simp only at hn ⊢
        rw [hb n, e0]
        split
        · rfl
        · simp only [Buf.alloc]
          rw [List.getElem?_replicate, if_pos (by omega)]

/-- C94, `set_shel`: as `set_cols`; with a larger number `s`, in the order of the buffer (row by row, column by column,
shelf by shelf), the first `(rows*cols-1)*shel + s` positions become 0 and the others hold no value. -/
theorem C94_set_shel [Zero α] {m : Mat α} (h : WF m) (s : Int) :
    (s < 0 → m.setShel s = .exit 1) ∧
    (s = m.shel → m.setShel s = .ok m) ∧
    (s = 0 → m.setShel s = .ok { m with shel := 0, elem := [] }) ∧
    (1 ≤ s → s < m.shel → 2 ≤ m.rows ∨ 2 ≤ m.cols → m.setShel s = .ub) ∧
    (1 ≤ s → s < m.shel → m.rows = 1 → m.cols = 1 →
      ∃ m', m.setShel s = .ok m' ∧ WF m' ∧ m'.rows = 1 ∧ m'.cols = 1 ∧ m'.shel = s ∧
        ∀ i j k, k ≤ s → m'.getElem3 i j k = m.getElem3 i j k) ∧
    (m.shel < s → ∃ m', m.setShel s = .ok m' ∧ m'.rows = m.rows ∧ m'.cols = m.cols ∧ m'.shel = s ∧
      ∀ i j k, 1 ≤ i → i ≤ m.rows → 1 ≤ j → j ≤ m.cols → 1 ≤ k → k ≤ s →
        m'.getElem3 i j k = if ((i - 1) * m.cols + (j - 1)) * s + k ≤ (m.rows * m.cols - 1) * m.shel + s
          then .ok 0 else .ub) := by
  have hr := h.rows1; have hcc := h.cols1; have hs := h.shel1
  refine ⟨fun e => ?_, fun e => ?_, fun e => ?_, fun h1 h2 h3 => C19_shrink_overflow h h3 s h1 h2, fun h1 h2 h3 h4 => ?_,
    fun hc => ?_⟩
  · unfold setShel; rw [if_pos e]
  · unfold setShel; rw [if_neg (by omega), if_neg (by omega), if_neg (by omega)]
  · subst e
    unfold setShel; rw [if_neg (by omega), if_neg (by omega), if_pos (by omega)]
    have : m.regrowLoop (Buf.alloc (m.rows * m.cols * 0)) m.rows m.cols 0 true = .ok [] := by
      unfold regrowLoop
      rw [forRange_nest3]
      simp only [irange_empty (show (0 : Int) < 1 by omega), List.map_nil, List.flatMap_nil, flatMap_nothing]
      simp [Buf.alloc]
    rw [this]; rfl
  · obtain ⟨m', e, hi, a, b, c', d⟩ := C19_set_shel_partial h s (by omega) (Or.inr ⟨h3, h4, by omega⟩)
    exact ⟨m', e, ⟨hi, by omega, by omega, by omega⟩, by omega, by omega, c', d⟩
  · have hp : 1 ≤ m.rows * m.cols := by
      have : 1 * 1 ≤ m.rows * m.cols := Int.mul_le_mul hr hcc (by omega) (by omega)
      omega
    have hN : 0 ≤ m.rows * m.cols * s := Int.mul_nonneg (by omega) (by omega)
    have e1 : (m.rows - 1) * m.cols + (m.cols - 1) = m.rows * m.cols - 1 := by rw [Int.sub_mul]; omega
    have htop : (m.rows * m.cols - 1) * m.shel + s ≤ m.rows * m.cols * s := by
      have : (m.rows * m.cols - 1) * m.shel ≤ (m.rows * m.cols - 1) * s := Int.mul_le_mul_of_nonneg_left (by omega) (by omega)
      rw [Int.sub_mul (m.rows * m.cols) 1 s] at this
      omega
    have hal : ((Buf.alloc (m.rows * m.cols * s) : Buf α).length : Int) = m.rows * m.cols * s := by
      simp only [Buf.alloc, List.length_replicate]; omega
    obtain ⟨b', e, hl, hb⟩ := regrow_zero m (Buf.alloc (m.rows * m.cols * s)) m.rows m.cols s hr hcc hs (by omega) (by omega)
      (by rw [hal, e1]; exact htop)
    rw [e1] at hb
    refine ⟨{ m with shel := s, elem := b' }, ?_, rfl, rfl, rfl, ?_⟩
    · unfold setShel
      rw [if_neg (by omega), if_pos (by omega)]
      have : decide (s ≤ m.shel) = false := by simp; omega
      rw [this, e]; rfl
    · intro i j k h1 h2 h3 h4 h5 h6
      rw [get3_of_buf (m := { m with shel := s, elem := b' }) (z := (0 : α)) (top := (m.rows * m.cols - 1) * m.shel + s)
        (by simp only; rw [hl, hal]) _ ⟨h1, h2, h3, h4, h5, h6⟩]
      · congr 1
        unfold index; rw [idx_eq]
        simp only
        apply propext
        omega
      · intro n hn
        simp only at hn ⊢
        rw [hb n]
        split
        · rfl
        · simp only [Buf.alloc]
          rw [List.getElem?_replicate, if_pos (by omega)]

/-! ### C98 -/

/-- C98: `set_elem(v)` writes element (1,1,1), and nothing else. -/
theorem C98_set_elem {m : Mat α} (h : WF m) (v : α) :
    ∃ m', m.setElem0 v = .ok m' ∧ WF m' ∧ m'.rows = m.rows ∧ m'.cols = m.cols ∧ m'.shel = m.shel ∧
      m'.getElem0 = .ok v ∧ m'.getElem3 1 1 1 = .ok v ∧
      ∀ i j k, ¬ (i = 1 ∧ j = 1 ∧ k = 1) → m'.getElem3 i j k = m.getElem3 i j k := by
  obtain ⟨f, hf⟩ := h.exists_isMat
  have hin : InR m.rows m.cols m.shel 1 1 1 := ⟨by omega, h.rows1, by omega, h.cols1, by omega, h.shel1⟩
  obtain ⟨b', e, hb⟩ := hf.writeBuf hin v (p := 0) (by simp [idx])
  refine ⟨{ m with elem := b' }, ?_, hb.wf h.rows1 h.cols1 h.shel1, rfl, rfl, rfl, ?_, ?_, ?_⟩
  · unfold setElem0; rw [e]; rfl
  · exact hb.buf.read hin (by simp [upd]) (by simp [idx])
  · rw [hb.get3 hin]; simp [upd]
  · intro i j k hne
    rw [hb.get3_eq, hf.get3_eq]
    unfold upd; rw [if_neg hne]

/-- C98: `total_elem()` is the number of coordinates of the matrix. -/
theorem C98_total {m : Mat α} (h : WF m) :
    ∃ L : List (Int × Int × Int), L.Nodup ∧ (L.length : Int) = m.totalElem ∧
      ∀ i j k, (i, j, k) ∈ L ↔ (1 ≤ i ∧ i ≤ m.rows) ∧ (1 ≤ j ∧ j ≤ m.cols) ∧ (1 ≤ k ∧ k ≤ m.shel) := by
  have hr := h.rows1; have hc := h.cols1; have hs := h.shel1
  refine ⟨(irange 1 m.rows).flatMap fun i => (irange 1 m.cols).flatMap fun j => (irange 1 m.shel).map fun k => (i, j, k),
    ?_, ?_, ?_⟩
  · rw [List.nodup_flatMap]
    refine ⟨fun i _ => ?_, ?_⟩
    · rw [List.nodup_flatMap]
      refine ⟨fun j _ => (nodup_irange _ _).map (fun a b h => by cases h; rfl), ?_⟩
      refine List.Pairwise.imp ?_ (nodup_irange 1 m.cols)
      intro a b hab x h1 h2
      obtain ⟨_, _, rfl⟩ := List.mem_map.1 h1
      obtain ⟨_, _, e⟩ := List.mem_map.1 h2
      cases e; exact hab rfl
    · refine List.Pairwise.imp ?_ (nodup_irange 1 m.rows)
      intro a b hab x h1 h2
      obtain ⟨_, _, h1⟩ := List.mem_flatMap.1 h1
      obtain ⟨_, _, rfl⟩ := List.mem_map.1 h1
      obtain ⟨_, _, h2⟩ := List.mem_flatMap.1 h2
      obtain ⟨_, _, e⟩ := List.mem_map.1 h2
      cases e; exact hab rfl
  · have key : ∀ {β γ : Type} (L : List β) (f : β → List γ) (n : Nat), (∀ x ∈ L, (f x).length = n) →
        (L.flatMap f).length = L.length * n := by
      intro β γ L f n hf
      induction L with
      | nil => simp
      | cons a L ih =>
        rw [List.flatMap_cons, List.length_append, hf a (by simp), ih (fun x hx => hf x (by simp [hx])), List.length_cons,
          Nat.add_mul]; omega
    rw [key _ _ (m.cols.toNat * m.shel.toNat)]
    · unfold totalElem
      simp only [length_irange, Int.add_sub_cancel]
      rw [Int.natCast_mul, Int.natCast_mul, Int.toNat_of_nonneg (by omega), Int.toNat_of_nonneg (by omega),
        Int.toNat_of_nonneg (by omega), Int.mul_assoc]
    · intro i _
      rw [key _ _ m.shel.toNat]
      · simp
      · intro j _; simp
  · intro i j k; exact mem_triples

example : WF ex23 ∧ ex23.totalElem = 6 ∧ ex23.setElem0 9 = .ok ⟨2, 3, 1, [some 9, some 2, some 3, some 4, some 5, some 6]⟩ := by
  decide

example : WF ex23 ∧ ex23.setCols 4 = .ok ⟨2, 4, 1, [some 0, some 0, some 0, some 0, some 0, some 0, some 0, none]⟩ := by decide
example : WF ex23 ∧ ex23.setShel 2 =
    .ok ⟨2, 3, 2, [some 0, some 0, some 0, some 0, some 0, some 0, some 0, none, none, none, none, none]⟩ := by decide
example : ex23.setCols 0 = .ok ⟨2, 0, 1, []⟩ ∧ ex23.setCols 2 = .ub ∧ ex23.setRows 3 =
    .ok ⟨3, 3, 1, [some 0, some 0, some 0, some 0, some 0, some 0, some 0, some 0, some 0]⟩ := by decide

end Verif.Mat
