import Verif.MatrixOps
/-
Row/column exchanges and shifts, regrowth, matching (helper lemmas).
-/
namespace Verif.Mat
variable {α : Type}

theorem swapRow_isMat [Zero α] {m : Mat α} {r c s f} (h : IsMat m r c s f) (hs : 1 ≤ s) (hc : 1 ≤ c)
    {a b : Int} (ha : 1 ≤ a) (ha' : a ≤ r) (hb : 1 ≤ b) (hb' : b ≤ r) :
    ∃ m', m.swapRow a b = .ok m' ∧ IsMat m' r c s (fun i j k =>
      if k = 1 then f (if i = a then b else if i = b then a else i) j k else f i j k) := by
  have : Inhabited α := ⟨f 1 1 1⟩
  unfold swapRow
  by_cases hab : a = b
  · subst hab
    rw [if_pos rfl]
    refine ⟨m, rfl, h.congr ?_⟩
    intro i j k _
    by_cases hk : k = 1
    · rw [if_pos hk]; by_cases hi : i = a
      · simp [hi]
      · simp [hi]
    · simp [hk]
  · rw [if_neg hab, getRowVec_ok h hs ha ha', getRowVec_ok h hs hb hb']
    simp only [Res.ok_bind]
    obtain ⟨m1, e1, h1⟩ := setRow_isMat h hs hb hb' (v := (irange 1 c).map (fun j => f a j 1)) (by simp; omega)
    rw [e1]
    obtain ⟨m2, e2, h2⟩ := setRow_isMat h1 hs ha ha' (v := (irange 1 c).map (fun j => f b j 1)) (by simp; omega)
    refine ⟨m2, e2, h2.congr ?_⟩
    intro i j k ⟨i1, i2, i3, i4, i5, i6⟩
    rw [getElem!_map_irange i3 i4, getElem!_map_irange i3 i4]
    by_cases hk : k = 1
    · subst hk
      by_cases hia : i = a
      · simp [hia]
      · by_cases hib : i = b
        · simp [hib, Ne.symm hab]
        · simp [hia, hib]
    · simp [hk]

/-- `swap_col` on a square matrix (on the others `set_col` compares with the wrong dimension). -/
theorem swapCol_isMat [Zero α] {m : Mat α} {r s f} (h : IsMat m r r s f) (hs : 1 ≤ s) (hr : 1 ≤ r)
    {a b : Int} (ha : 1 ≤ a) (ha' : a ≤ r) (hb : 1 ≤ b) (hb' : b ≤ r) :
    ∃ m', m.swapCol a b = .ok m' ∧ IsMat m' r r s (fun i j k =>
      if k = 1 then f i (if j = a then b else if j = b then a else j) k else f i j k) := by
  have : Inhabited α := ⟨f 1 1 1⟩
  unfold swapCol
  by_cases hab : a = b
  · subst hab
    rw [if_pos rfl]
    refine ⟨m, rfl, h.congr ?_⟩
    intro i j k _
    by_cases hk : k = 1
    · rw [if_pos hk]; by_cases hi : j = a
      · simp [hi]
      · simp [hi]
    · simp [hk]
  · rw [if_neg hab, getColVec_ok h hs ha ha', getColVec_ok h hs hb hb']
    simp only [Res.ok_bind]
    obtain ⟨m1, e1, h1⟩ := setCol_isMat h hs (by omega) hb hb' (v := (irange 1 r).map (fun j => f j a 1)) (by simp; omega)
    rw [e1]
    obtain ⟨m2, e2, h2⟩ := setCol_isMat h1 hs (by omega) ha ha' (v := (irange 1 r).map (fun j => f j b 1)) (by simp; omega)
    refine ⟨m2, e2, h2.congr ?_⟩
    intro i j k ⟨i1, i2, i3, i4, i5, i6⟩
    rw [getElem!_map_irange i1 i2, getElem!_map_irange i1 i2]
    by_cases hk : k = 1
    · subst hk
      by_cases hia : j = a
      · simp [hia]
      · by_cases hib : j = b
        · simp [hib, Ne.symm hab]
        · simp [hia, hib]
    · simp [hk]

/-- One inner loop of `move_row`: row `b` becomes row `a`. -/
theorem copyRowLoop {m : Mat α} {r c s f} (h : IsMat m r c s f) (hs : 1 ≤ s)
    {a b : Int} (_hab : a ≠ b) (ha : 1 ≤ a) (ha' : a ≤ r) (hb : 1 ≤ b) (hb' : b ≤ r) :
    ∃ m', forRange 1 m.cols m (fun m c => do let v ← m.getElem2 a c; m.setElem2 v b c) = .ok m' ∧
      IsMat m' r c s (fun i j k => if i = b ∧ k = 1 then f a j 1 else f i j k) := by
  rw [h.cols]
  have hc := h.buf.hc
  obtain ⟨m', e, hm⟩ := forRange_inv (lo := 1) (hi := c)
    (body := fun (m : Mat α) c => do let v ← m.getElem2 a c; m.setElem2 v b c)
    (fun q m => IsMat m r c s (fun i j k => if i = b ∧ k = 1 ∧ j < q then f a j 1 else f i j k))
    (by omega)
    (by
      intro q m h1 h2 hm
      have hg := hm.get2 hs ha ha' h1 h2
      have : ¬ (a = b ∧ (1:Int) = 1 ∧ q < q) := by omega
      rw [if_neg this] at hg
      obtain ⟨m', e, hm'⟩ := hm.set2 hs hb hb' h1 h2 (f a q 1)
      refine ⟨m', by rw [hg]; exact e, hm'.congr ?_⟩
      intro i j k _
      unfold upd
      by_cases h1 : i = b
      · by_cases h2 : k = 1
        · by_cases h3 : j = q
          · simp [h1, h2, h3]; intro h; omega
          · have : (j < q) ↔ (j < q + 1) := by omega
            simp [h1, h2, h3, this]
        · simp [h2]
      · simp [h1])
    (h.congr (by
      intro i j k hi
      have := hi.2.2.1
      rw [if_neg (by omega)]))
  refine ⟨m', e, hm.congr ?_⟩
  intro i j k hi
  have h4 := hi.2.2.2.1
  by_cases h1 : i = b ∧ k = 1
  · rw [if_pos ⟨h1.1, h1.2, by omega⟩, if_pos h1]
  · rw [if_neg (by rintro ⟨a, b, _⟩; exact h1 ⟨a, b⟩), if_neg h1]

/-- One inner loop of `move_col`: column `b` becomes column `a`. -/
theorem copyColLoop {m : Mat α} {r c s f} (h : IsMat m r c s f) (hs : 1 ≤ s)
    {a b : Int} (_hab : a ≠ b) (ha : 1 ≤ a) (ha' : a ≤ c) (hb : 1 ≤ b) (hb' : b ≤ c) :
    ∃ m', forRange 1 m.rows m (fun m i => do let v ← m.getElem2 i a; m.setElem2 v i b) = .ok m' ∧
      IsMat m' r c s (fun i j k => if j = b ∧ k = 1 then f i a 1 else f i j k) := by
  rw [h.rows]
  have hr := h.buf.hr
  obtain ⟨m', e, hm⟩ := forRange_inv (lo := 1) (hi := r)
    (body := fun (m : Mat α) i => do let v ← m.getElem2 i a; m.setElem2 v i b)
    (fun q m => IsMat m r c s (fun i j k => if j = b ∧ k = 1 ∧ i < q then f i a 1 else f i j k))
    (by omega)
    (by
      intro q m h1 h2 hm
      have hg := hm.get2 hs h1 h2 ha ha'
      have : ¬ (a = b ∧ (1:Int) = 1 ∧ q < q) := by omega
      rw [if_neg this] at hg
      obtain ⟨m', e, hm'⟩ := hm.set2 hs h1 h2 hb hb' (f q a 1)
      refine ⟨m', by rw [hg]; exact e, hm'.congr ?_⟩
      intro i j k _
      unfold upd
      by_cases h1 : j = b
      · by_cases h2 : k = 1
        · by_cases h3 : i = q
          · simp [h1, h2, h3]; intro h; omega
          · have : (i < q) ↔ (i < q + 1) := by omega
            simp [h1, h2, h3, this]
        · simp [h2]
      · simp [h1])
    (h.congr (by
      intro i j k hi
      have := hi.1
      rw [if_neg (by omega)]))
  refine ⟨m', e, hm.congr ?_⟩
  intro i j k hi
  have h4 := hi.2.1
  by_cases h1 : j = b ∧ k = 1
  · rw [if_pos ⟨h1.1, h1.2, by omega⟩, if_pos h1]
  · rw [if_neg (by rintro ⟨a, b, _⟩; exact h1 ⟨a, b⟩), if_neg h1]

/-- Where the line shown at position `i` after `move(a → b)` came from. -/
def moveSrc (a b i : Int) : Int :=
  if i = b then a
  else if a < b then (if a ≤ i ∧ i < b then i + 1 else i)
  else (if b < i ∧ i ≤ a then i - 1 else i)

theorem moveRow_isMat [Zero α] {m : Mat α} {r c s f} (h : IsMat m r c s f) (hs : 1 ≤ s) (hc : 1 ≤ c)
    {a b : Int} (ha : 1 ≤ a) (ha' : a ≤ r) (hb : 1 ≤ b) (hb' : b ≤ r) :
    ∃ m', m.moveRow a b = .ok m' ∧ IsMat m' r c s (fun i j k =>
      if k = 1 then f (moveSrc a b i) j k else f i j k) := by
  have : Inhabited α := ⟨f 1 1 1⟩
  unfold moveRow
  by_cases hab : a = b
  · subst hab
    rw [if_pos rfl]
    refine ⟨m, rfl, h.congr ?_⟩
    intro i j k _
    have : moveSrc a a i = i := by unfold moveSrc; (repeat' split) <;> omega
    simp [this]
  · rw [if_neg hab, getRowVec_ok h hs ha ha']
    simp only [Res.ok_bind]
    by_cases hlt : a < b
    · simp only [if_pos hlt]
      obtain ⟨m1, e1, h1⟩ := forRange_inv (lo := a) (hi := b - 1)
        (body := fun (m : Mat α) r => forRange 1 m.cols m (fun m c => do let v ← m.getElem2 (r + 1) c; m.setElem2 v r c))
        (fun q m => IsMat m r c s (fun i j k => if k = 1 ∧ a ≤ i ∧ i < q then f (i + 1) j 1 else f i j k))
        (by omega)
        (by
          intro q m h1 h2 hm
          obtain ⟨m', e, hm'⟩ := copyRowLoop hm hs (a := q + 1) (b := q) (by omega) (by omega) (by omega) (by omega) (by omega)
          refine ⟨m', e, hm'.congr ?_⟩
          intro i j k _
          have : ¬ ((1:Int) = 1 ∧ a ≤ q + 1 ∧ q + 1 < q) := by omega
          rw [if_neg this]
          by_cases h1 : k = 1
          · subst h1
            by_cases h2 : i = q
            · simp [h2]; intro hh; omega
            · have : (i < q) ↔ (i < q + 1) := by omega
              simp [h2, this]
          · simp [h1])
        (h.congr (by intro i j k hi; rw [if_neg (by omega)]))
      rw [e1]; simp only [Res.ok_bind]
      obtain ⟨m2, e2, h2⟩ := setRow_isMat h1 hs hb hb' (v := (irange 1 c).map (fun j => f a j 1)) (by simp; omega)
      refine ⟨m2, e2, h2.congr ?_⟩
      intro i j k ⟨i1, i2, i3, i4, i5, i6⟩
      rw [getElem!_map_irange i3 i4]
      by_cases hk : k = 1
      · subst hk
        unfold moveSrc
        by_cases hib : i = b
        · simp [hib]
        · have : (i < b - 1 + 1) ↔ i < b := by omega
          simp only [hib, false_and, if_false, true_and, this, hlt, if_true]
          split <;> rfl
      · simp [hk]
    · simp only [if_neg hlt]
      obtain ⟨m1, e1, h1⟩ := forDown_inv (hi := a) (lo := b + 1)
        (body := fun (m : Mat α) r => forRange 1 m.cols m (fun m c => do let v ← m.getElem2 (r - 1) c; m.setElem2 v r c))
        (fun q m => IsMat m r c s (fun i j k => if k = 1 ∧ q ≤ i ∧ i ≤ a then f (i - 1) j 1 else f i j k))
        (by omega)
        (by
          intro q m h1 h2 hm
          obtain ⟨m', e, hm'⟩ := copyRowLoop hm hs (a := q - 1) (b := q) (by omega) (by omega) (by omega) (by omega) (by omega)
          refine ⟨m', e, hm'.congr ?_⟩
          intro i j k _
          have : ¬ ((1:Int) = 1 ∧ q + 1 ≤ q - 1 ∧ q - 1 ≤ a) := by omega
          rw [if_neg this]
          by_cases h1 : k = 1
          · subst h1
            by_cases h2 : i = q
            · simp [h2]; intro hh; omega
            · have : (q + 1 ≤ i) ↔ (q ≤ i) := by omega
              simp [h2, this]
          · simp [h1])
        (h.congr (by intro i j k hi; rw [if_neg (by omega)]))
      rw [e1]; simp only [Res.ok_bind]
      obtain ⟨m2, e2, h2⟩ := setRow_isMat h1 hs hb hb' (v := (irange 1 c).map (fun j => f a j 1)) (by simp; omega)
      refine ⟨m2, e2, h2.congr ?_⟩
      intro i j k ⟨i1, i2, i3, i4, i5, i6⟩
      rw [getElem!_map_irange i3 i4]
      by_cases hk : k = 1
      · subst hk
        unfold moveSrc
        by_cases hib : i = b
        · simp [hib]
        · have : (b + 1 ≤ i) ↔ b < i := by omega
          simp only [hib, false_and, if_false, true_and, this, hlt]
          split <;> rfl
      · simp [hk]

/-- `move_col` on a square matrix. -/
theorem moveCol_isMat [Zero α] {m : Mat α} {r s f} (h : IsMat m r r s f) (hs : 1 ≤ s) (hr : 1 ≤ r)
    {a b : Int} (ha : 1 ≤ a) (ha' : a ≤ r) (hb : 1 ≤ b) (hb' : b ≤ r) :
    ∃ m', m.moveCol a b = .ok m' ∧ IsMat m' r r s (fun i j k =>
      if k = 1 then f i (moveSrc a b j) k else f i j k) := by
  have : Inhabited α := ⟨f 1 1 1⟩
  unfold moveCol
  by_cases hab : a = b
  · subst hab
    rw [if_pos rfl]
    refine ⟨m, rfl, h.congr ?_⟩
    intro i j k _
    have : moveSrc a a j = j := by unfold moveSrc; (repeat' split) <;> omega
    simp [this]
  · rw [if_neg hab, getColVec_ok h hs ha ha']
    simp only [Res.ok_bind]
    by_cases hlt : a < b
    · simp only [if_pos hlt]
      obtain ⟨m1, e1, h1⟩ := forRange_inv (lo := a) (hi := b - 1)
        (body := fun (m : Mat α) c => forRange 1 m.rows m (fun m r => do let v ← m.getElem2 r (c + 1); m.setElem2 v r c))
        (fun q m => IsMat m r r s (fun i j k => if k = 1 ∧ a ≤ j ∧ j < q then f i (j + 1) 1 else f i j k))
        (by omega)
        (by
          intro q m h1 h2 hm
          obtain ⟨m', e, hm'⟩ := copyColLoop hm hs (a := q + 1) (b := q) (by omega) (by omega) (by omega) (by omega) (by omega)
          refine ⟨m', e, hm'.congr ?_⟩
          intro i j k _
          have : ¬ ((1:Int) = 1 ∧ a ≤ q + 1 ∧ q + 1 < q) := by omega
          rw [if_neg this]
          by_cases h1 : k = 1
          · subst h1
            by_cases h2 : j = q
            · simp [h2]; intro hh; omega
            · have : (j < q) ↔ (j < q + 1) := by omega
              simp [h2, this]
          · simp [h1])
        (h.congr (by intro i j k hi; rw [if_neg (by omega)]))
      rw [e1]; simp only [Res.ok_bind]
      obtain ⟨m2, e2, h2⟩ := setCol_isMat h1 hs (by omega) hb hb' (v := (irange 1 r).map (fun j => f j a 1)) (by simp; omega)
      refine ⟨m2, e2, h2.congr ?_⟩
      intro i j k ⟨i1, i2, i3, i4, i5, i6⟩
      rw [getElem!_map_irange i1 i2]
      by_cases hk : k = 1
      · subst hk
        unfold moveSrc
        by_cases hib : j = b
        · simp [hib]
        · have : (j < b - 1 + 1) ↔ j < b := by omega
          simp only [hib, false_and, if_false, true_and, this, hlt, if_true]
          split <;> rfl
      · simp [hk]
    · simp only [if_neg hlt]
      obtain ⟨m1, e1, h1⟩ := forDown_inv (hi := a) (lo := b + 1)
        (body := fun (m : Mat α) c => forRange 1 m.rows m (fun m r => do let v ← m.getElem2 r (c - 1); m.setElem2 v r c))
        (fun q m => IsMat m r r s (fun i j k => if k = 1 ∧ q ≤ j ∧ j ≤ a then f i (j - 1) 1 else f i j k))
        (by omega)
        (by
          intro q m h1 h2 hm
          obtain ⟨m', e, hm'⟩ := copyColLoop hm hs (a := q - 1) (b := q) (by omega) (by omega) (by omega) (by omega) (by omega)
          refine ⟨m', e, hm'.congr ?_⟩
          intro i j k _
          have : ¬ ((1:Int) = 1 ∧ q + 1 ≤ q - 1 ∧ q - 1 ≤ a) := by omega
          rw [if_neg this]
          by_cases h1 : k = 1
          · subst h1
            by_cases h2 : j = q
            · simp [h2]; intro hh; omega
            · have : (q + 1 ≤ j) ↔ (q ≤ j) := by omega
              simp [h2, this]
          · simp [h1])
        (h.congr (by intro i j k hi; rw [if_neg (by omega)]))
      rw [e1]; simp only [Res.ok_bind]
      obtain ⟨m2, e2, h2⟩ := setCol_isMat h1 hs (by omega) hb hb' (v := (irange 1 r).map (fun j => f j a 1)) (by simp; omega)
      refine ⟨m2, e2, h2.congr ?_⟩
      intro i j k ⟨i1, i2, i3, i4, i5, i6⟩
      rw [getElem!_map_irange i1 i2]
      by_cases hk : k = 1
      · subst hk
        unfold moveSrc
        by_cases hib : j = b
        · simp [hib]
        · have : (b + 1 ≤ j) ↔ b < j := by omega
          simp only [hib, false_and, if_false, true_and, this, hlt]
          split <;> rfl
      · simp [hk]

/-! ### regrowth -/

/-- Shrinking (or keeping) the number of rows keeps the index function, so it works. -/
theorem setRows_shrink_isMat [Zero α] {m : Mat α} {r c s f} (h : IsMat m r c s f)
    {r' : Int} (h0 : 0 ≤ r') (h1 : r' ≤ r) :
    ∃ m', m.setRows r' = .ok m' ∧ IsMat m' r' c s f := by
  unfold setRows
  rw [if_neg (by omega), h.rows, if_neg (by omega)]
  by_cases hlt : r' < r
  · rw [if_pos hlt]
    obtain ⟨b, e, hb⟩ := BufIs.fill3 (lo := 1) (hi := r') (lo2 := 1) (hi2 := c) (lo3 := 1) (hi3 := s)
      (fun (temp : Buf α) i j k => do
          let v ← m.elem.read (m.index i j k)
          temp.write (m.index i j k) v)
      (fun i _ _ => i) (fun _ j _ => j) (fun _ _ k => k) (fun i j k => some (f i j k))
      (fun x y z h1 h2 h3 h4 h5 h6 => ⟨h1, h2, h3, h4, h5, h6⟩)
      (fun x y z a1 a2 a3 a4 a5 a6 b f hb => by
        rw [h.buf.read (i := x) (j := y) (k := z) ⟨a1, by omega, a3, a4, a5, a6⟩ rfl (by unfold index; rw [h.cols, h.shel])]
        exact hb.write ⟨a1, a2, a3, a4, a5, a6⟩ _ (by unfold index; rw [h.cols, h.shel]))
      (BufIs.alloc (r := r') (c := c) (s := s) (by omega) h.buf.hc h.buf.hs)
      (fun i j k hi hv => absurd ⟨rfl, rfl, rfl⟩
        (hv i j k hi.1 hi.2.1 hi.2.2.1 hi.2.2.2.1 hi.2.2.2.2.1 hi.2.2.2.2.2))
    refine ⟨⟨r', c, s, b⟩, ?_, rfl, rfl, rfl, hb⟩
    unfold regrowLoop
    simp only [if_true]
    rw [h.cols, h.shel, e]; rfl
  · rw [if_neg hlt]
    have : r' = r := by omega
    subst this
    exact ⟨m, rfl, h⟩

/-- Growing the number of rows produces an all-zero matrix. -/
theorem setRows_grow_isMat [Zero α] {m : Mat α} {r c s f} (h : IsMat m r c s f)
    {r' : Int} (h1 : r < r') :
    ∃ m', m.setRows r' = .ok m' ∧ IsMat m' r' c s (fun _ _ _ => 0) := by
  have := h.buf.hr
  unfold setRows
  rw [if_neg (by omega), h.rows, if_pos (by omega)]
  obtain ⟨b, e, hb⟩ := BufIs.fill3 (lo := 1) (hi := r') (lo2 := 1) (hi2 := c) (lo3 := 1) (hi3 := s)
      (fun (temp : Buf α) i j k => temp.write (m.index i j k) 0)
      (fun i _ _ => i) (fun _ j _ => j) (fun _ _ k => k) (fun i j k => some 0)
      (fun x y z h1 h2 h3 h4 h5 h6 => ⟨h1, h2, h3, h4, h5, h6⟩)
      (fun x y z a1 a2 a3 a4 a5 a6 b f hb =>
        hb.write ⟨a1, a2, a3, a4, a5, a6⟩ _ (by unfold index; rw [h.cols, h.shel]))
      (BufIs.alloc (r := r') (c := c) (s := s) (by omega) h.buf.hc h.buf.hs)
      (fun i j k hi hv => absurd ⟨rfl, rfl, rfl⟩
        (hv i j k hi.1 hi.2.1 hi.2.2.1 hi.2.2.2.1 hi.2.2.2.2.1 hi.2.2.2.2.2))
  refine ⟨⟨r', c, s, b⟩, ?_, rfl, rfl, rfl, hb⟩
  unfold regrowLoop
  have : ¬ (r' ≤ r) := by omega
  simp only [this, decide_false, Bool.false_eq_true, if_false]
  rw [h.cols, h.shel, e]; rfl

/-! ### matching -/

theorem allMatch_ok {β : Type} [DecidableEq β] (tos : α → β) {F G : Int → Res α} {f g : Int → α} (L : List Int)
    (hF : ∀ j ∈ L, F j = .ok (f j)) (hG : ∀ j ∈ L, G j = .ok (g j)) :
    allMatch tos F G L = .ok (decide (∀ j ∈ L, tos (f j) = tos (g j))) := by
  induction L with
  | nil => simp [allMatch]
  | cons a L ih =>
    simp only [allMatch, hF a (by simp), hG a (by simp), Res.ok_bind]
    by_cases h : tos (f a) = tos (g a)
    · rw [if_neg (by simpa using h), ih (fun j hj => hF j (by simp [hj])) (fun j hj => hG j (by simp [hj]))]
      simp [h]
    · rw [if_pos (by simpa using h)]; simp [h]

/-- Largest element of `1..n` satisfying `p`, or `-1`. -/
def lastSat (p : Int → Bool) (n : Int) : Int :=
  (irange 1 n).foldl (fun acc ii => if p ii then ii else acc) (-1)

theorem lastSat_succ (p : Int → Bool) {n : Int} (h : 0 ≤ n) :
    lastSat p (n + 1) = if p (n + 1) then n + 1 else lastSat p n := by
  unfold lastSat
  rw [irange_succ (by omega)]; simp

theorem lastSat_spec (p : Int → Bool) {n : Int} (h : 0 ≤ n) :
    (lastSat p n = -1 ∧ ∀ x, 1 ≤ x → x ≤ n → p x = false) ∨
    (1 ≤ lastSat p n ∧ lastSat p n ≤ n ∧ p (lastSat p n) = true ∧
      ∀ x, lastSat p n < x → x ≤ n → p x = false) := by
  obtain ⟨k, rfl⟩ := Int.eq_ofNat_of_zero_le h
  induction k with
  | zero => left; exact ⟨rfl, by intro x h1 h2; simp at h2; omega⟩
  | succ k ih =>
    have e : ((k + 1 : Nat) : Int) = (k : Int) + 1 := by omega
    rw [e, lastSat_succ p (by omega)]
    by_cases hp : p ((k : Int) + 1) = true
    · rw [if_pos hp]; right
      exact ⟨by omega, by omega, hp, by intro x h1 h2; omega⟩
    · rw [if_neg hp]
      rcases ih (by omega) with ⟨h1, h2⟩ | ⟨h1, h2, h3, h4⟩
      · left; refine ⟨h1, ?_⟩
        intro x hx1 hx2
        by_cases hxe : x = (k:Int) + 1
        · subst hxe; simpa using hp
        · exact h2 x hx1 (by omega)
      · right; refine ⟨h1, by omega, h3, ?_⟩
        intro x hx1 hx2
        by_cases hxe : x = (k:Int) + 1
        · subst hxe; simpa using hp
        · exact h4 x hx1 (by omega)

/-- The two nested loops shared by `matchRow` and `matchCol`. -/
theorem matchLoop_ok {n k : Int} (hn : 0 ≤ n) (hk : 0 ≤ k) (T : Int → Int → Res Bool) (t : Int → Int → Bool)
    (hT : ∀ i ii, 1 ≤ i → i ≤ n → 1 ≤ ii → ii ≤ k → T i ii = .ok (t i ii)) :
    forRange 1 n (List.replicate n.toNat (-1 : Int)) (fun vec i =>
      forRange 1 k vec (fun vec ii => do
        let ok ← T i ii
        if ok then vecSet vec (i - 1) ii else .ok vec)) =
      .ok ((irange 1 n).map (fun i => lastSat (t i) k)) := by
  obtain ⟨v, e, h1, h2⟩ := forRange_inv (lo := 1) (hi := n)
    (body := fun (vec : List Int) i => forRange 1 k vec (fun vec ii => do
        let ok ← T i ii
        if ok then vecSet vec (i - 1) ii else .ok vec))
    (fun q vec => vec.length = n.toNat ∧ ∀ x : Nat, x < n.toNat → vec[x]? =
      some (if (x : Int) + 1 < q then lastSat (t (x + 1)) k else -1))
    (by omega)
    (by
      intro q vec h1 h2 ⟨hl, hv⟩
      obtain ⟨v, e, h3, h4⟩ := forRange_inv (lo := 1) (hi := k)
        (body := fun (vec : List Int) ii => do
          let ok ← T q ii
          if ok then vecSet vec (q - 1) ii else .ok vec)
        (fun p vec => vec.length = n.toNat ∧ ∀ x : Nat, x < n.toNat → vec[x]? =
          some (if (x : Int) + 1 < q then lastSat (t (x + 1)) k
            else if (x : Int) + 1 = q then lastSat (t (x + 1)) (p - 1) else -1))
        (by omega)
        (by
          intro p vec g1 g2 ⟨hl, hv⟩
          simp only [hT q p h1 h2 g1 g2, Res.ok_bind]
          by_cases htt : t q p = true
          · simp only [htt, if_true]
            refine ⟨vec.set (q - 1).toNat p, ?_, by simpa using hl, ?_⟩
            · unfold vecSet; rw [if_pos (by omega)]
            · intro x hx
              rw [List.getElem?_set]
              by_cases hxq : (x : Int) + 1 = q
              · rw [if_pos (by omega), if_pos (by omega), if_neg (by omega), if_pos hxq]
                have e1 : p + 1 - 1 = (p - 1) + 1 := by omega
                have e2 : p - 1 + 1 = p := by omega
                rw [e1, lastSat_succ _ (by omega), e2, hxq, if_pos htt]
              · rw [if_neg (by omega), hv x hx]
                simp [hxq]
          · simp only [htt]
            refine ⟨vec, rfl, hl, ?_⟩
            intro x hx
            rw [hv x hx]
            by_cases hxq : (x : Int) + 1 = q
            · have e1 : p + 1 - 1 = (p - 1) + 1 := by omega
              have e2 : p - 1 + 1 = p := by omega
              rw [e1, lastSat_succ _ (by omega), e2, hxq]
              simp [htt]
            · simp [hxq])
        (s := vec) (by
          refine ⟨hl, fun x hx => ?_⟩
          rw [hv x hx]
          have : lastSat (t ((x:Int) + 1)) (1 - 1) = -1 := rfl
          rw [this]; simp)
      refine ⟨v, e, h3, ?_⟩
      intro x hx
      rw [h4 x hx]
      have e1 : k + 1 - 1 = k := by omega
      rw [e1]
      by_cases hxq : (x : Int) + 1 < q
      · rw [if_pos hxq, if_pos (by omega)]
      · by_cases hxq2 : (x : Int) + 1 = q
        · rw [if_neg hxq, if_pos hxq2, if_pos (by omega)]
        · rw [if_neg hxq, if_neg hxq2, if_neg (by omega)])
    (s := List.replicate n.toNat (-1 : Int))
    (by
      refine ⟨by simp, fun x hx => ?_⟩
      rw [List.getElem?_replicate, if_pos hx, if_neg (by omega)])
  rw [e]
  congr 1
  apply List.ext_getElem?
  intro x
  by_cases hx : x < n.toNat
  · rw [h2 x hx, if_pos (by omega)]
    rw [List.getElem?_map, List.getElem?_eq_getElem (by simp; omega), getElem_irange]
    simp; congr 2; omega
  · rw [List.getElem?_eq_none (by omega), List.getElem?_eq_none (by simp; omega)]

theorem matchCol_ok {β : Type} [DecidableEq β] (tos : α → β) {m mat : Mat α} {r c c' f g}
    (h : IsMat m r c 1 f) (h' : IsMat mat r c' 1 g) :
    matchCol tos m mat = .ok ((irange 1 c).map (fun i =>
      lastSat (fun ii => decide (∀ j ∈ irange 1 r, tos (f j i 1) = tos (g j ii 1))) c')) := by
  unfold matchCol
  rw [h.rows, h.cols, h.shel, h'.rows, h'.cols, h'.shel, if_neg (by omega), if_neg (by omega)]
  refine matchLoop_ok h.buf.hc h'.buf.hc _ (fun i ii => decide (∀ j ∈ irange 1 r, tos (f j i 1) = tos (g j ii 1))) ?_
  intro i ii a1 a2 a3 a4
  refine allMatch_ok tos _ (fun j hj => ?_) (fun j hj => ?_)
  · have := mem_irange.1 hj; exact h.get2 (by omega) this.1 this.2 a1 a2
  · have := mem_irange.1 hj; exact h'.get2 (by omega) this.1 this.2 a3 a4

theorem matchRow_ok {β : Type} [DecidableEq β] (tos : α → β) {m mat : Mat α} {r r' c f g}
    (h : IsMat m r c 1 f) (h' : IsMat mat r' c 1 g) :
    matchRow tos m mat = .ok ((irange 1 r).map (fun i =>
      lastSat (fun ii => decide (∀ j ∈ irange 1 c, tos (f i j 1) = tos (g ii j 1))) r')) := by
  unfold matchRow
  rw [h.rows, h.cols, h.shel, h'.rows, h'.cols, h'.shel, if_neg (by omega), if_neg (by omega)]
  refine matchLoop_ok h.buf.hr h'.buf.hr _ (fun i ii => decide (∀ j ∈ irange 1 c, tos (f i j 1) = tos (g ii j 1))) ?_
  intro i ii a1 a2 a3 a4
  refine allMatch_ok tos _ (fun j hj => ?_) (fun j hj => ?_)
  · have := mem_irange.1 hj; exact h.get2 (by omega) a1 a2 this.1 this.2
  · have := mem_irange.1 hj; exact h'.get2 (by omega) a3 a4 this.1 this.2

end Verif.Mat
