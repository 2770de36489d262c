import Verif.Props.QCBlocks
/-
Property C116: the exact outcome of splitting a matrix into blocks and of merging blocks.
-/
namespace Verif.QC
open Mat
variable {α : Type}

theorem forRange_split {σ : Type} {lo mid hi : Int} (h1 : lo ≤ mid + 1) (h2 : mid ≤ hi) (s : σ) (body : σ → Int → Res σ) :
    forRange lo hi s body = (forRange lo mid s body >>= fun s => forRange (mid + 1) hi s body) := by
  unfold forRange
  rw [← irange_append h1 h2, List.foldlM_append]

/-! ### merging: one block -/

/-- One row of a block. -/
def colBody (m : Mat α) (R p : Int) (st : Mat α × Int) (i : Int) : Res (Mat α × Int) :=
  if st.2 > R then .throw .runtimeError
  else do
    let full ← forRange 1 m.cols st.1 fun full j => do
      let v ← m.getElem2 i j
      full.setElem2 v st.2 (j + p)
    .ok (full, st.2 + 1)

theorem mergeColsStep_eq (R C p : Int) (full m : Mat α) (hp : p ≤ C) :
    mergeColsStep R C (full, p) m = (forRange 1 m.rows (full, 1) (colBody m R p) >>= fun x => .ok (x.1, p + m.cols)) := by
  unfold mergeColsStep
  rw [if_neg (by simp only; omega)]
  rfl

theorem colFill {R C p r c s : Int} {full b : Mat α} {f F : Int → Int → Int → α} (hb : IsMat b r c s f) (hs : 1 ≤ s) (hp : 0 ≤ p)
    (hC : p + c ≤ C) (hf : IsMat full R C 1 F) {r' : Int} (h0 : 0 ≤ r') (hr : r' ≤ r) (hR : r' ≤ R) :
    ∃ full', forRange 1 r' (full, 1) (colBody b R p) = .ok (full', r' + 1) ∧
      IsMat full' R C 1 (fun i j k => if i ≤ r' ∧ p < j ∧ j ≤ p + c then f i (j - p) 1 else F i j k) := by
  have loop := forRange_inv (lo := 1) (hi := r') (body := colBody b R p)
    (fun t st => st.2 = t ∧ IsMat st.1 R C 1 (fun i j k => if i < t ∧ p < j ∧ j ≤ p + c then f i (j - p) 1 else F i j k))
    (by omega)
    (by
      rintro t ⟨fl, row⟩ h1 h2 ⟨rfl, hfl⟩
      simp only at h1 h2 hfl ⊢
      obtain ⟨fl', e, hfl'⟩ := IsMat.fill1 (lo := 1) (hi := c)
        (fun (full : Mat α) j => do let v ← b.getElem2 row j; full.setElem2 v row (j + p))
        (fun _ => row) (fun j => j + p) (fun _ => 1)
        (fun i j k => if i < row + 1 ∧ p < j ∧ j ≤ p + c then f i (j - p) 1 else F i j k)
        (fun x a1 a2 mm ff hh => by
          rw [hb.get2 hs h1 (by omega) a1 a2, if_pos (by omega)]
          have := hh.set2 (by omega) h1 (by omega) (by omega : 1 ≤ x + p) (by omega) (f row x 1)
          rw [show x + p - p = x by omega]
          exact this) hfl
        (fun i j k hi hv => by
          have hik : k = 1 := by unfold InR at hi; omega
          by_cases c2 : i < row ∧ p < j ∧ j ≤ p + c
          · rw [if_pos c2, if_pos (by omega)]
          · rw [if_neg c2, if_neg]
            intro c3
            exact hv (j - p) (by omega) (by omega) ⟨by omega, by omega, hik⟩)
      refine ⟨(fl', row + 1), ?_, rfl, hfl'⟩
      unfold colBody
      rw [if_neg (by simp only; omega), hb.cols, e]
      rfl)
    (s := (full, 1)) ⟨rfl, hf.congr (fun i j k hi => by
        rw [if_neg]; unfold InR at hi; omega)⟩
  obtain ⟨⟨fl, row⟩, e, e2, hfl⟩ := loop
  simp only at e2 hfl
  subst e2
  refine ⟨fl, e, hfl.congr (fun i j k hi => ?_)⟩
  congr 1
  apply propext; omega

/-- A block that fits. -/
theorem mergeCols_fits {R C p : Int} {full b : Mat α} {F : Int → Int → Int → α} (hb : WF b) (hp : 0 ≤ p) (hC : p + b.cols ≤ C)
    (hf : IsMat full R C 1 F) (hR : b.rows ≤ R) :
    ∃ full' F', mergeColsStep R C (full, p) b = .ok (full', p + b.cols) ∧ IsMat full' R C 1 F' ∧
      (∀ i j, 1 ≤ i → i ≤ R → 1 ≤ j → j ≤ b.cols → b.getElem2 i j = .ok (F' i (p + j) 1) ∨ (b.rows < i ∧ F' i (p + j) 1 = F i (p + j) 1)) ∧
      (∀ i j, j ≤ p ∨ p + b.cols < j → F' i j 1 = F i j 1) := by
  obtain ⟨f, hf'⟩ := hb.exists_isMat
  have hc := hb.cols1
  obtain ⟨full', e, h⟩ := colFill hf' hb.shel1 hp hC hf (r' := b.rows) (by have := hb.rows1; omega) (by omega) hR
  refine ⟨full', _, ?_, h, ?_, ?_⟩
  · rw [mergeColsStep_eq _ _ _ _ _ (by omega), e]; rfl
  · intro i j h1 h2 h3 h4
    by_cases hi : i ≤ b.rows
    · left
      rw [hf'.get2 hb.shel1 h1 hi h3 h4, if_pos (by omega), show p + j - p = j by omega]
    · right
      exact ⟨by omega, if_neg (by omega)⟩
  · intro i j h
    exact if_neg (by omega)

/-- A block that is too wide. -/
theorem mergeCols_wide {R C p : Int} {full b : Mat α} {F : Int → Int → Int → α} (hb : WF b) (hp : 0 ≤ p) (hpC : p ≤ C) (hC : C < p + b.cols)
    (hf : IsMat full R C 1 F) (hR : 1 ≤ R) : mergeColsStep R C (full, p) b = .exit 1 := by
  have hr := hb.rows1
  obtain ⟨f, hf'⟩ := hb.exists_isMat
  rw [mergeColsStep_eq _ _ _ _ _ hpC, forRange_cons hr]
  have : colBody b R p (full, 1) 1 = .exit 1 := by
    unfold colBody
    rw [if_neg (by simp only; omega)]
    simp only
    have e : forRange 1 b.cols full (fun full j => do let v ← b.getElem2 1 j; full.setElem2 v 1 (j + p)) = .exit 1 := by
      refine foldlM_fail (fail := .exit 1) (fun _ => rfl) (fun m => ∃ F, IsMat m R C 1 F) _ _ ?_ ⟨b.cols, mem_irange.2 ⟨hb.cols1, by omega⟩, ?_⟩ ⟨F, hf⟩
      · rintro x hx s ⟨F, hs⟩
        obtain ⟨x1, x2⟩ := mem_irange.1 hx
        rw [hf'.get2 hb.shel1 (by omega) hr x1 x2]
        simp only [Res.ok_bind]
        by_cases h : x + p ≤ C
        · obtain ⟨m', e, h⟩ := hs.set2 (by omega) (by omega : (1 : Int) ≤ 1) hR (by omega : 1 ≤ x + p) h (f 1 x 1)
          exact .inr ⟨m', e, _, h⟩
        · exact .inl (set2_exit _ (by rw [hs.rows, hs.cols]; omega))
      · rintro s ⟨F, hs⟩
        rw [hf'.get2 hb.shel1 (by omega) hr hb.cols1 (by omega)]
        simp only [Res.ok_bind]
        exact set2_exit _ (by rw [hs.rows, hs.cols]; omega)
    rw [e]; rfl
  rw [this]; rfl

/-- A block that is too tall. -/
theorem mergeCols_tall {R C p : Int} {full b : Mat α} {F : Int → Int → Int → α} (hb : WF b) (hp : 0 ≤ p) (hC : p + b.cols ≤ C)
    (hf : IsMat full R C 1 F) (hR : 1 ≤ R) (hr : R < b.rows) : mergeColsStep R C (full, p) b = .throw .runtimeError := by
  obtain ⟨f, hf'⟩ := hb.exists_isMat
  have hc := hb.cols1
  obtain ⟨full', e, h⟩ := colFill hf' hb.shel1 hp hC hf (r' := R) (by omega) (by omega) (by omega)
  rw [mergeColsStep_eq _ _ _ _ _ (by omega), forRange_split (mid := R) (by omega) (by omega), e]
  simp only [Res.ok_bind]
  rw [forRange_cons (by omega)]
  have : colBody b R p (full', R + 1) (R + 1) = .throw .runtimeError := by
    unfold colBody; rw [if_pos (by simp only; omega)]
  rw [this]; rfl


/-- The blocks that fit, from offset `p` on. -/
theorem mergeCols_loop {R C : Int} (l : List (Mat α)) (hl : ∀ b ∈ l, WF b ∧ b.rows ≤ R) {p : Int} {full : Mat α} {F : Int → Int → Int → α}
    (hp : 0 ≤ p) (hC : p + (l.map (·.cols)).sum ≤ C) (hf : IsMat full R C 1 F) :
    ∃ full' F', l.foldlM (mergeColsStep R C) (full, p) = .ok (full', p + (l.map (·.cols)).sum) ∧ IsMat full' R C 1 F' ∧
      (∀ (k : Nat) b, l[k]? = some b → ∀ i j, 1 ≤ i → i ≤ R → 1 ≤ j → j ≤ b.cols →
        b.getElem2 i j = .ok (F' i (p + ((l.take k).map (·.cols)).sum + j) 1) ∨
          (b.rows < i ∧ F' i (p + ((l.take k).map (·.cols)).sum + j) 1 = F i (p + ((l.take k).map (·.cols)).sum + j) 1)) ∧
      (∀ i j, j ≤ p ∨ p + (l.map (·.cols)).sum < j → F' i j 1 = F i j 1) := by
  have pos : ∀ l : List (Mat α), (∀ b ∈ l, WF b ∧ b.rows ≤ R) → 0 ≤ (l.map (·.cols)).sum := by
    intro l hl
    induction l with
    | nil => simp
    | cons b l ih =>
      have := ih fun x hx => hl x (by simp [hx])
      have := (hl b (by simp)).1.cols1
      simp only [List.map_cons, List.sum_cons]; omega
  induction l generalizing p full F with
  | nil => exact ⟨full, F, by simp, hf, by simp, fun _ _ _ => rfl⟩
  | cons b l ih =>
    have hl' : ∀ x ∈ l, WF x ∧ x.rows ≤ R := fun x hx => hl x (by simp [hx])
    have hs := pos l hl'
    have hc := (hl b (by simp)).1.cols1
    simp only [List.map_cons, List.sum_cons] at hC ⊢
    obtain ⟨full1, F1, e1, h1, g1, o1⟩ := mergeCols_fits (hl b (by simp)).1 hp (by omega) hf (hl b (by simp)).2
    obtain ⟨full2, F2, e2, h2, g2, o2⟩ := ih hl' (p := p + b.cols) (by omega) (by omega) h1
    refine ⟨full2, F2, ?_, h2, ?_, ?_⟩
    · rw [List.foldlM_cons, e1, Res.ok_bind, e2]; congr 2; omega
    · intro k x hk i j a1 a2 a3 a4
      cases k with
      | zero =>
        simp only [List.getElem?_cons_zero, Option.some.injEq] at hk
        subst hk
        simp only [List.take_zero, List.map_nil, List.sum_nil]
        rw [show p + 0 + j = p + j by omega, o2 i (p + j) (.inl (by omega))]
        exact g1 i j a1 a2 a3 a4
      | succ k =>
        simp only [List.getElem?_cons_succ] at hk
        simp only [List.take_succ_cons, List.map_cons, List.sum_cons]
        have ht := pos (l.take k) fun x hx => hl' x (List.mem_of_mem_take hx)
        have := g2 k x hk i j a1 a2 a3 a4
        rw [show p + b.cols + ((l.take k).map (·.cols)).sum + j = p + (b.cols + ((l.take k).map (·.cols)).sum) + j by omega,
          o1 i (p + (b.cols + ((l.take k).map (·.cols)).sum) + j) (.inr (by omega))] at this
        exact this
    · intro i j h
      rw [o2 i j (by omega), o1 i j (by omega)]

/-! ### the same for rows -/

/-- One column of a block. -/
def rowBody (m : Mat α) (R p : Int) (st : Mat α × Int) (i : Int) : Res (Mat α × Int) :=
  if st.2 > R then .throw .runtimeError
  else do
    let full ← forRange 1 m.rows st.1 fun full j => do
      let v ← m.getElem2 j i
      full.setElem2 v (p + j) st.2
    .ok (full, st.2 + 1)

theorem mergeRowsStep_eq (R C p : Int) (full m : Mat α) (hp : p ≤ C) :
    mergeRowsStep C R (full, p) m = (forRange 1 m.cols (full, 1) (rowBody m R p) >>= fun x => .ok (x.1, p + m.rows)) := by
  unfold mergeRowsStep
  rw [if_neg (by simp only; omega)]
  rfl

theorem rowFill {R C p r c s : Int} {full b : Mat α} {f F : Int → Int → Int → α} (hb : IsMat b c r s f) (hs : 1 ≤ s) (hp : 0 ≤ p)
    (hC : p + c ≤ C) (hf : IsMat full C R 1 F) {r' : Int} (h0 : 0 ≤ r') (hr : r' ≤ r) (hR : r' ≤ R) :
    ∃ full', forRange 1 r' (full, 1) (rowBody b R p) = .ok (full', r' + 1) ∧
      IsMat full' C R 1 (fun j i k => if i ≤ r' ∧ p < j ∧ j ≤ p + c then f (j - p) i 1 else F j i k) := by
  have loop := forRange_inv (lo := 1) (hi := r') (body := rowBody b R p)
    (fun t st => st.2 = t ∧ IsMat st.1 C R 1 (fun j i k => if i < t ∧ p < j ∧ j ≤ p + c then f (j - p) i 1 else F j i k))
    (by omega)
    (by
      rintro t ⟨fl, row⟩ h1 h2 ⟨rfl, hfl⟩
      simp only at h1 h2 hfl ⊢
      obtain ⟨fl', e, hfl'⟩ := IsMat.fill1 (lo := 1) (hi := c)
        (fun (full : Mat α) j => do let v ← b.getElem2 j row; full.setElem2 v (p + j) row)
        (fun j => p + j) (fun _ => row) (fun _ => 1)
        (fun j i k => if i < row + 1 ∧ p < j ∧ j ≤ p + c then f (j - p) i 1 else F j i k)
        (fun x a1 a2 mm ff hh => by
          rw [hb.get2 hs a1 a2 h1 (by omega), if_pos (by omega)]
          have := hh.set2 (by omega) (by omega : 1 ≤ p + x) (by omega) h1 (by omega) (f x row 1)
          rw [show p + x - p = x by omega]
          exact this) hfl
        (fun j i k hi hv => by
          have hik : k = 1 := by unfold InR at hi; omega
          by_cases c2 : i < row ∧ p < j ∧ j ≤ p + c
          · rw [if_pos c2, if_pos (by omega)]
          · rw [if_neg c2, if_neg]
            intro c3
            exact hv (j - p) (by omega) (by omega) ⟨by omega, by omega, hik⟩)
      refine ⟨(fl', row + 1), ?_, rfl, hfl'⟩
      unfold rowBody
      rw [if_neg (by simp only; omega), hb.rows, e]
      rfl)
    (s := (full, 1)) ⟨rfl, hf.congr (fun j i k hi => by
        rw [if_neg]; unfold InR at hi; omega)⟩
  obtain ⟨⟨fl, row⟩, e, e2, hfl⟩ := loop
  simp only at e2 hfl
  subst e2
  refine ⟨fl, e, hfl.congr (fun j i k hi => ?_)⟩
  congr 1
  apply propext; omega

/-- A block that fits. -/
theorem mergeRows_fits {R C p : Int} {full b : Mat α} {F : Int → Int → Int → α} (hb : WF b) (hp : 0 ≤ p) (hC : p + b.rows ≤ C)
    (hf : IsMat full C R 1 F) (hR : b.cols ≤ R) :
    ∃ full' F', mergeRowsStep C R (full, p) b = .ok (full', p + b.rows) ∧ IsMat full' C R 1 F' ∧
      (∀ i j, 1 ≤ i → i ≤ R → 1 ≤ j → j ≤ b.rows → b.getElem2 j i = .ok (F' (p + j) i 1) ∨ (b.cols < i ∧ F' (p + j) i 1 = F (p + j) i 1)) ∧
      (∀ i j, j ≤ p ∨ p + b.rows < j → F' j i 1 = F j i 1) := by
  obtain ⟨f, hf'⟩ := hb.exists_isMat
  have hc := hb.rows1
  obtain ⟨full', e, h⟩ := rowFill hf' hb.shel1 hp hC hf (r' := b.cols) (by have := hb.cols1; omega) (by omega) hR
  refine ⟨full', _, ?_, h, ?_, ?_⟩
  · rw [mergeRowsStep_eq _ _ _ _ _ (by omega), e]; rfl
  · intro i j h1 h2 h3 h4
    by_cases hi : i ≤ b.cols
    · left
      rw [hf'.get2 hb.shel1 h3 h4 h1 hi, if_pos (by omega), show p + j - p = j by omega]
    · right
      exact ⟨by omega, if_neg (by omega)⟩
  · intro i j h
    exact if_neg (by omega)

/-- A block that is too tall. -/
theorem mergeRows_tall {R C p : Int} {full b : Mat α} {F : Int → Int → Int → α} (hb : WF b) (hp : 0 ≤ p) (hpC : p ≤ C) (hC : C < p + b.rows)
    (hf : IsMat full C R 1 F) (hR : 1 ≤ R) : mergeRowsStep C R (full, p) b = .exit 1 := by
  have hr := hb.cols1
  obtain ⟨f, hf'⟩ := hb.exists_isMat
  rw [mergeRowsStep_eq _ _ _ _ _ hpC, forRange_cons hr]
  have : rowBody b R p (full, 1) 1 = .exit 1 := by
    unfold rowBody
    rw [if_neg (by simp only; omega)]
    simp only
    have e : forRange 1 b.rows full (fun full j => do let v ← b.getElem2 j 1; full.setElem2 v (p + j) 1) = .exit 1 := by
      refine foldlM_fail (fail := .exit 1) (fun _ => rfl) (fun m => ∃ F, IsMat m C R 1 F) _ _ ?_ ⟨b.rows, mem_irange.2 ⟨hb.rows1, by omega⟩, ?_⟩ ⟨F, hf⟩
      · rintro x hx s ⟨F, hs⟩
        obtain ⟨x1, x2⟩ := mem_irange.1 hx
        rw [hf'.get2 hb.shel1 x1 x2 (by omega) hr]
        simp only [Res.ok_bind]
        by_cases h : p + x ≤ C
        · obtain ⟨m', e, h⟩ := hs.set2 (by omega) (by omega : 1 ≤ p + x) h (by omega : (1 : Int) ≤ 1) hR (f x 1 1)
          exact .inr ⟨m', e, _, h⟩
        · exact .inl (set2_exit _ (by rw [hs.rows, hs.cols]; omega))
      · rintro s ⟨F, hs⟩
        rw [hf'.get2 hb.shel1 hb.rows1 (by omega) (by omega) hr]
        simp only [Res.ok_bind]
        exact set2_exit _ (by rw [hs.rows, hs.cols]; omega)
    rw [e]; rfl
  rw [this]; rfl

/-- A block that is too wide. -/
theorem mergeRows_wide {R C p : Int} {full b : Mat α} {F : Int → Int → Int → α} (hb : WF b) (hp : 0 ≤ p) (hC : p + b.rows ≤ C)
    (hf : IsMat full C R 1 F) (hR : 1 ≤ R) (hr : R < b.cols) : mergeRowsStep C R (full, p) b = .throw .runtimeError := by
  obtain ⟨f, hf'⟩ := hb.exists_isMat
  have hc := hb.rows1
  obtain ⟨full', e, h⟩ := rowFill hf' hb.shel1 hp hC hf (r' := R) (by omega) (by omega) (by omega)
  rw [mergeRowsStep_eq _ _ _ _ _ (by omega), forRange_split (mid := R) (by omega) (by omega), e]
  simp only [Res.ok_bind]
  rw [forRange_cons (by omega)]
  have : rowBody b R p (full', R + 1) (R + 1) = .throw .runtimeError := by
    unfold rowBody; rw [if_pos (by simp only; omega)]
  rw [this]; rfl


/-- The blocks that fit, from offset `p` on. -/
theorem mergeRows_loop {R C : Int} (l : List (Mat α)) (hl : ∀ b ∈ l, WF b ∧ b.cols ≤ R) {p : Int} {full : Mat α} {F : Int → Int → Int → α}
    (hp : 0 ≤ p) (hC : p + (l.map (·.rows)).sum ≤ C) (hf : IsMat full C R 1 F) :
    ∃ full' F', l.foldlM (mergeRowsStep C R) (full, p) = .ok (full', p + (l.map (·.rows)).sum) ∧ IsMat full' C R 1 F' ∧
      (∀ (k : Nat) b, l[k]? = some b → ∀ i j, 1 ≤ i → i ≤ R → 1 ≤ j → j ≤ b.rows →
        b.getElem2 j i = .ok (F' (p + ((l.take k).map (·.rows)).sum + j) i 1) ∨
          (b.cols < i ∧ F' (p + ((l.take k).map (·.rows)).sum + j) i 1 = F (p + ((l.take k).map (·.rows)).sum + j) i 1)) ∧
      (∀ i j, j ≤ p ∨ p + (l.map (·.rows)).sum < j → F' j i 1 = F j i 1) := by
  have pos : ∀ l : List (Mat α), (∀ b ∈ l, WF b ∧ b.cols ≤ R) → 0 ≤ (l.map (·.rows)).sum := by
    intro l hl
    induction l with
    | nil => simp
    | cons b l ih =>
      have := ih fun x hx => hl x (by simp [hx])
      have := (hl b (by simp)).1.rows1
      simp only [List.map_cons, List.sum_cons]; omega
  induction l generalizing p full F with
  | nil => exact ⟨full, F, by simp, hf, by simp, fun _ _ _ => rfl⟩
  | cons b l ih =>
    have hl' : ∀ x ∈ l, WF x ∧ x.cols ≤ R := fun x hx => hl x (by simp [hx])
    have hs := pos l hl'
    have hc := (hl b (by simp)).1.rows1
    simp only [List.map_cons, List.sum_cons] at hC ⊢
    obtain ⟨full1, F1, e1, h1, g1, o1⟩ := mergeRows_fits (hl b (by simp)).1 hp (by omega) hf (hl b (by simp)).2
    obtain ⟨full2, F2, e2, h2, g2, o2⟩ := ih hl' (p := p + b.rows) (by omega) (by omega) h1
    refine ⟨full2, F2, ?_, h2, ?_, ?_⟩
    · rw [List.foldlM_cons, e1, Res.ok_bind, e2]; congr 2; omega
    · intro k x hk i j a1 a2 a3 a4
      cases k with
      | zero =>
        simp only [List.getElem?_cons_zero, Option.some.injEq] at hk
        subst hk
        simp only [List.take_zero, List.map_nil, List.sum_nil]
        rw [show p + 0 + j = p + j by omega, o2 i (p + j) (.inl (by omega))]
        exact g1 i j a1 a2 a3 a4
      | succ k =>
        simp only [List.getElem?_cons_succ] at hk
        simp only [List.take_succ_cons, List.map_cons, List.sum_cons]
        have ht := pos (l.take k) fun x hx => hl' x (List.mem_of_mem_take hx)
        have := g2 k x hk i j a1 a2 a3 a4
        rw [show p + b.rows + ((l.take k).map (·.rows)).sum + j = p + (b.rows + ((l.take k).map (·.rows)).sum) + j by omega,
          o1 i (p + (b.rows + ((l.take k).map (·.rows)).sum) + j) (.inr (by omega))] at this
        exact this
    · intro i j h
      rw [o2 i j (by omega), o1 i j (by omega)]



/-! ### the claims -/

theorem merge_eq [Zero α] {R C : Int} (hR : 1 ≤ R) (hC : 1 ≤ C) (l : List (Mat α)) :
    ∃ full : Mat α, IsMat full R C 1 (fun _ _ _ => 0) ∧
      mergeListOfMatrices l R C "Columns".toList = (l.foldlM (mergeColsStep R C) (full, 0) >>= fun st => .ok st.1) ∧
      mergeListOfMatrices l R C "Rows".toList = (l.foldlM (mergeRowsStep R C) (full, 0) >>= fun st => .ok st.1) := by
  obtain ⟨full, e, h⟩ := mk2_isMat (α := α) hR hC
  refine ⟨full, h, ?_, ?_⟩ <;> unfold mergeListOfMatrices <;> rw [e]
  · rfl
  · rfl

/-- C116 (merging side by side): if no block has more rows than the target and their columns fit, block after block is put beside the one
before, top aligned; everything else is 0. Columns beyond the blocks stay 0. -/
theorem C116_merge_cols [Zero α] {R C : Int} (hR : 1 ≤ R) (hC : 1 ≤ C) (l : List (Mat α)) (hl : ∀ b ∈ l, WF b)
    (hr : ∀ b ∈ l, b.rows ≤ R) (hc : (l.map (·.cols)).sum ≤ C) :
    ∃ m, mergeListOfMatrices l R C "Columns".toList = .ok m ∧ WF m ∧ m.rows = R ∧ m.cols = C ∧ m.shel = 1 ∧
      (∀ (k : Nat) b, l[k]? = some b → ∀ i j, 1 ≤ i → i ≤ R → 1 ≤ j → j ≤ b.cols →
        m.getElem2 i (((l.take k).map (·.cols)).sum + j) = if i ≤ b.rows then b.getElem2 i j else .ok 0) ∧
      (∀ i j, 1 ≤ i → i ≤ R → (l.map (·.cols)).sum < j → j ≤ C → m.getElem2 i j = .ok 0) := by
  obtain ⟨full, hf, e, -⟩ := merge_eq hR hC l
  obtain ⟨m, F, e1, h1, g, o⟩ := mergeCols_loop l (fun b hb => ⟨hl b hb, hr b hb⟩) (p := 0) (by omega) (by omega) hf
  have pos : ∀ n, 0 ≤ ((l.take n).map (·.cols)).sum := by
    intro n
    apply sum_nonneg
    intro x hx
    obtain ⟨b, hb, rfl⟩ := List.mem_map.1 hx
    exact (hl b (List.mem_of_mem_take hb)).cols1
  refine ⟨m, ?_, h1.wf hR hC (by omega), h1.rows, h1.cols, h1.shel, ?_, ?_⟩
  · rw [e, e1]; rfl
  · intro k b hk i j a1 a2 a3 a4
    have h0 := pos k
    have hle : ((l.take k).map (·.cols)).sum + b.cols ≤ C := by
      have hkl := (List.getElem?_eq_some_iff.1 hk).1
      have hkb := (List.getElem?_eq_some_iff.1 hk).2
      have e2 := sum_take_succ (l.map (·.cols)) k (by simpa using hkl)
      have e3 : (l.map (·.cols)).take (k + 1) ++ (l.map (·.cols)).drop (k + 1) = l.map (·.cols) := List.take_append_drop _ _
      have e4 := congrArg List.sum e3
      rw [List.sum_append] at e4
      have e5 : 0 ≤ ((l.map (·.cols)).drop (k + 1)).sum := by
        apply sum_nonneg
        intro x hx
        obtain ⟨b, hb, rfl⟩ := List.mem_map.1 (List.mem_of_mem_drop hx)
        exact (hl b hb).cols1
      simp only [List.getElem_map, hkb] at e2
      rw [List.map_take] at h0 ⊢
      omega
    have := g k b hk i j a1 a2 a3 a4
    rw [h1.get2 (by omega) a1 a2 (by omega) (by omega)]
    rw [show 0 + ((l.take k).map (·.cols)).sum + j = ((l.take k).map (·.cols)).sum + j by omega] at this
    rcases this with e | ⟨e, e'⟩
    · by_cases hi : i ≤ b.rows
      · rw [if_pos hi, e]
      · obtain ⟨f, hf'⟩ := (hl b (List.mem_of_getElem? hk)).exists_isMat
        rw [hf'.get2_eq (hl b (List.mem_of_getElem? hk)).shel1, if_neg (by omega)] at e
        cases e
    · rw [if_neg (by omega), e']
  · intro i j a1 a2 a3 a4
    have h0 := pos l.length
    rw [List.take_length] at h0
    rw [h1.get2 (by omega) a1 a2 (by omega) a4, o i j (.inr (by omega))]

/-- C116 (merging side by side, failure): the first block that does not fit decides. If it is too wide the process ends with status 1, whatever
its height; if it is narrow enough but too tall, `runtime_error` is thrown. -/
theorem C116_merge_cols_fails [Zero α] {R C : Int} (hR : 1 ≤ R) (hC : 1 ≤ C) (l1 : List (Mat α)) (b : Mat α) (l2 : List (Mat α))
    (hl : ∀ x ∈ l1, WF x) (hb : WF b) (hr : ∀ x ∈ l1, x.rows ≤ R) (hc : (l1.map (·.cols)).sum ≤ C) :
    (C < (l1.map (·.cols)).sum + b.cols → mergeListOfMatrices (l1 ++ b :: l2) R C "Columns".toList = .exit 1) ∧
    ((l1.map (·.cols)).sum + b.cols ≤ C → R < b.rows → mergeListOfMatrices (l1 ++ b :: l2) R C "Columns".toList = .throw .runtimeError) := by
  obtain ⟨full, hf, e, -⟩ := merge_eq hR hC (l1 ++ b :: l2)
  obtain ⟨m, F, e1, h1, g, o⟩ := mergeCols_loop l1 (fun b hb => ⟨hl b hb, hr b hb⟩) (p := 0) (by omega) (by omega) hf
  have pos : 0 ≤ (l1.map (·.cols)).sum := by
    apply sum_nonneg
    intro x hx
    obtain ⟨b, hb, rfl⟩ := List.mem_map.1 hx
    exact (hl b hb).cols1
  rw [e, List.foldlM_append, e1]
  simp only [Res.ok_bind, List.foldlM_cons]
  constructor
  · intro h
    rw [mergeCols_wide hb (by omega) (by omega) (by omega) h1 hR]; rfl
  · intro h h'
    rw [mergeCols_tall hb (by omega) (by omega) h1 hR h']; rfl

/-- C116 (merging on top of each other): if no block has more columns than the target and their rows fit, block after block is put below the one
before, left aligned; everything else is 0. Rows beyond the blocks stay 0. -/
theorem C116_merge_rows [Zero α] {R C : Int} (hR : 1 ≤ R) (hC : 1 ≤ C) (l : List (Mat α)) (hl : ∀ b ∈ l, WF b)
    (hr : ∀ b ∈ l, b.cols ≤ C) (hc : (l.map (·.rows)).sum ≤ R) :
    ∃ m, mergeListOfMatrices l R C "Rows".toList = .ok m ∧ WF m ∧ m.rows = R ∧ m.cols = C ∧ m.shel = 1 ∧
      (∀ (k : Nat) b, l[k]? = some b → ∀ i j, 1 ≤ i → i ≤ C → 1 ≤ j → j ≤ b.rows →
        m.getElem2 (((l.take k).map (·.rows)).sum + j) i = if i ≤ b.cols then b.getElem2 j i else .ok 0) ∧
      (∀ i j, 1 ≤ i → i ≤ C → (l.map (·.rows)).sum < j → j ≤ R → m.getElem2 j i = .ok 0) := by
  obtain ⟨full, hf, -, e⟩ := merge_eq hR hC l
  obtain ⟨m, F, e1, h1, g, o⟩ := mergeRows_loop l (fun b hb => ⟨hl b hb, hr b hb⟩) (p := 0) (by omega) (by omega) hf
  have pos : ∀ n, 0 ≤ ((l.take n).map (·.rows)).sum := by
    intro n
    apply sum_nonneg
    intro x hx
    obtain ⟨b, hb, rfl⟩ := List.mem_map.1 hx
    exact (hl b (List.mem_of_mem_take hb)).rows1
  refine ⟨m, ?_, h1.wf hR hC (by omega), h1.rows, h1.cols, h1.shel, ?_, ?_⟩
  · rw [e, e1]; rfl
  · intro k b hk i j a1 a2 a3 a4
    have h0 := pos k
    have hle : ((l.take k).map (·.rows)).sum + b.rows ≤ R := by
      have hkl := (List.getElem?_eq_some_iff.1 hk).1
      have hkb := (List.getElem?_eq_some_iff.1 hk).2
      have e2 := sum_take_succ (l.map (·.rows)) k (by simpa using hkl)
      have e3 : (l.map (·.rows)).take (k + 1) ++ (l.map (·.rows)).drop (k + 1) = l.map (·.rows) := List.take_append_drop _ _
      have e4 := congrArg List.sum e3
      rw [List.sum_append] at e4
      have e5 : 0 ≤ ((l.map (·.rows)).drop (k + 1)).sum := by
        apply sum_nonneg
        intro x hx
        obtain ⟨b, hb, rfl⟩ := List.mem_map.1 (List.mem_of_mem_drop hx)
        exact (hl b hb).rows1
      simp only [List.getElem_map, hkb] at e2
      rw [List.map_take] at h0 ⊢
      omega
    have := g k b hk i j a1 a2 a3 a4
    rw [h1.get2 (by omega) (by omega) (by omega) a1 a2]
    rw [show 0 + ((l.take k).map (·.rows)).sum + j = ((l.take k).map (·.rows)).sum + j by omega] at this
    rcases this with e | ⟨e, e'⟩
    · by_cases hi : i ≤ b.cols
      · rw [if_pos hi, e]
      · obtain ⟨f, hf'⟩ := (hl b (List.mem_of_getElem? hk)).exists_isMat
        rw [hf'.get2_eq (hl b (List.mem_of_getElem? hk)).shel1, if_neg (by omega)] at e
        cases e
    · rw [if_neg (by omega), e']
  · intro i j a1 a2 a3 a4
    have h0 := pos l.length
    rw [List.take_length] at h0
    rw [h1.get2 (by omega) (by omega) a4 a1 a2, o i j (.inr (by omega))]

/-- C116 (merging on top of each other, failure): the first block that does not fit decides. If it is too tall the process ends with status 1, whatever
its width; if it is short enough but too wide, `runtime_error` is thrown. -/
theorem C116_merge_rows_fails [Zero α] {R C : Int} (hR : 1 ≤ R) (hC : 1 ≤ C) (l1 : List (Mat α)) (b : Mat α) (l2 : List (Mat α))
    (hl : ∀ x ∈ l1, WF x) (hb : WF b) (hr : ∀ x ∈ l1, x.cols ≤ C) (hc : (l1.map (·.rows)).sum ≤ R) :
    (R < (l1.map (·.rows)).sum + b.rows → mergeListOfMatrices (l1 ++ b :: l2) R C "Rows".toList = .exit 1) ∧
    ((l1.map (·.rows)).sum + b.rows ≤ R → C < b.cols → mergeListOfMatrices (l1 ++ b :: l2) R C "Rows".toList = .throw .runtimeError) := by
  obtain ⟨full, hf, -, e⟩ := merge_eq hR hC (l1 ++ b :: l2)
  obtain ⟨m, F, e1, h1, g, o⟩ := mergeRows_loop l1 (fun b hb => ⟨hl b hb, hr b hb⟩) (p := 0) (by omega) (by omega) hf
  have pos : 0 ≤ (l1.map (·.rows)).sum := by
    apply sum_nonneg
    intro x hx
    obtain ⟨b, hb, rfl⟩ := List.mem_map.1 hx
    exact (hl b hb).rows1
  rw [e, List.foldlM_append, e1]
  simp only [Res.ok_bind, List.foldlM_cons]
  constructor
  · intro h
    rw [mergeRows_tall hb (by omega) (by omega) (by omega) h1 hC]; rfl
  · intro h h'
    rw [mergeRows_wide hb (by omega) (by omega) h1 hC h']; rfl

/-! ### splitting -/

theorem splitCols_fits [Zero α] {m : Mat α} (h : WF m) {f : Int → Int → Int → α} (hf : IsMat m m.rows m.cols m.shel f) (acc : List (Mat α)) {p w : Int}
    (hp : 0 ≤ p) (hw : 1 ≤ w) (hc : p + w ≤ m.cols) :
    ∃ n, splitColsStep m (acc, p) w = .ok (acc ++ [n], p + w) ∧ IsMat n m.rows w 1 (fun i j _ => f i (p + j) 1) := by
  obtain ⟨n0, e0, h0⟩ := mk2_isMat (α := α) h.rows1 hw
  obtain ⟨n, e, hn⟩ := IsMat.fill2 (lo := 1) (hi := m.rows) (lo2 := 1) (hi2 := w)
    (fun (new : Mat α) k j => do let v ← m.getElem2 k (p + j); new.setElem2 v k j)
    (fun k _ => k) (fun _ j => j) (fun _ _ => 1) (fun i j _ => f i (p + j) 1)
    (fun x y a1 a2 b1 b2 mm ff hh => by
      rw [hf.get2 h.shel1 a1 a2 (by omega : 1 ≤ p + y) (by omega)]
      exact hh.set2 (by omega) a1 a2 b1 b2 (f x (p + y) 1)) h0
    (fun i j k hi hv => by
      unfold InR at hi
      exact absurd ⟨rfl, rfl, by omega⟩ (hv i j (by omega) (by omega) (by omega) (by omega)))
  refine ⟨n, ?_, hn⟩
  unfold splitColsStep
  rw [e0]
  simp only [Res.ok_bind]
  rw [e]
  rfl

theorem splitCols_loop [Zero α] {m : Mat α} (h : WF m) {f : Int → Int → Int → α} (hf : IsMat m m.rows m.cols m.shel f) (sizes : List Int)
    (hb : ∀ b ∈ sizes, 1 ≤ b) (acc : List (Mat α)) {p : Int} (hp : 0 ≤ p) (hc : p + sizes.sum ≤ m.cols) :
    ∃ l, sizes.foldlM (splitColsStep m) (acc, p) = .ok (acc ++ l, p + sizes.sum) ∧ l.length = sizes.length ∧
      ∀ (k : Nat) b w, l[k]? = some b → sizes[k]? = some w → IsMat b m.rows w 1 (fun i j _ => f i (p + (sizes.take k).sum + j) 1) := by
  induction sizes generalizing acc p with
  | nil => exact ⟨[], by simp, rfl, by simp⟩
  | cons w sizes ih =>
    have hw := hb w (by simp)
    have hs := sum_nonneg (basis := sizes) (fun x hx => hb x (by simp [hx]))
    simp only [List.sum_cons] at hc
    obtain ⟨n, e, hn⟩ := splitCols_fits h hf acc hp hw (by omega)
    obtain ⟨l, e2, hl, hg⟩ := ih (fun x hx => hb x (by simp [hx])) (acc ++ [n]) (p := p + w) (by omega) (by omega)
    refine ⟨n :: l, ?_, by simp [hl], ?_⟩
    · rw [List.foldlM_cons, e, Res.ok_bind, e2]
      simp only [List.append_assoc, List.singleton_append, List.sum_cons]
      congr 2; omega
    · intro k b w' hk hw'
      cases k with
      | zero =>
        simp only [List.getElem?_cons_zero, Option.some.injEq] at hk hw'
        subst hk; subst hw'
        exact hn.congr (fun i j k _ => by simp)
      | succ k =>
        simp only [List.getElem?_cons_succ] at hk hw'
        exact (hg k b w' hk hw').congr (fun i j _ _ => by simp only [List.take_succ_cons, List.sum_cons]; congr 1; omega)

/-- C116 (splitting into columns): block sizes of at least 1 that do not exceed the width give that many blocks, in order, each holding the columns
after those of the blocks before it; columns left over are dropped. (Any other sizes end the process, C28.) -/
theorem C116_split_cols [Zero α] {m : Mat α} (h : WF m) (sizes : List Int) (hb : ∀ b ∈ sizes, 1 ≤ b) (hsum : sizes.sum ≤ m.cols) :
    ∃ l, splitMatrixIntoList sizes m "Columns".toList = .ok l ∧ l.length = sizes.length ∧
      ∀ (k : Nat) (b : Mat α) (w : Int), l[k]? = some b → sizes[k]? = some w →
        WF b ∧ b.rows = m.rows ∧ b.cols = w ∧ b.shel = 1 ∧
        ∀ i j, 1 ≤ j → j ≤ w → b.getElem2 i j = m.getElem2 i ((sizes.take k).sum + j) := by
  obtain ⟨f, hf⟩ := h.exists_isMat
  obtain ⟨l, e, hl, hg⟩ := splitCols_loop h hf sizes hb [] (p := 0) (by omega) (by omega)
  refine ⟨l, ?_, hl, ?_⟩
  · unfold splitMatrixIntoList
    rw [if_pos rfl, e]; rfl
  · intro k b w hk hw
    have hR := hg k b w hk hw
    have hkl := (List.getElem?_eq_some_iff.1 hw).1
    have hwe : sizes[k] = w := (List.getElem?_eq_some_iff.1 hw).2
    have hw1 : 1 ≤ w := hwe ▸ hb _ (List.getElem_mem hkl)
    refine ⟨hR.wf h.rows1 hw1 (by omega), hR.rows, hR.cols, hR.shel, ?_⟩
    intro i j hj1 hj2
    have hst := sum_take_succ sizes k hkl
    have h0 := sum_take_nonneg hb k
    have hle : (sizes.take (k + 1)).sum ≤ m.cols := by
      have h1 := List.sum_append (l₁ := sizes.take (k+1)) (l₂ := sizes.drop (k+1))
      rw [List.take_append_drop] at h1
      have h2 := sum_nonneg (basis := sizes.drop (k+1)) (fun x hx => hb x (List.mem_of_mem_drop hx))
      omega
    rw [hR.get2_eq (by omega), hf.get2_eq h.shel1, show 0 + (sizes.take k).sum + j = (sizes.take k).sum + j by omega]
    congr 1
    apply propext; omega

theorem splitRows_fits [Zero α] {m : Mat α} (h : WF m) {f : Int → Int → Int → α} (hf : IsMat m m.rows m.cols m.shel f) (acc : List (Mat α)) {p w : Int}
    (hp : 0 ≤ p) (hw : 1 ≤ w) (hc : p + w ≤ m.rows) :
    ∃ n, splitRowsStep m (acc, p) w = .ok (acc ++ [n], p + w) ∧ IsMat n w m.cols 1 (fun i j _ => f (p + i) j 1) := by
  obtain ⟨n0, e0, h0⟩ := mk2_isMat (α := α) hw h.cols1
  obtain ⟨n, e, hn⟩ := IsMat.fill2 (lo := 1) (hi := m.cols) (lo2 := 1) (hi2 := w)
    (fun (new : Mat α) k j => do let v ← m.getElem2 (p + j) k; new.setElem2 v j k)
    (fun _ j => j) (fun k _ => k) (fun _ _ => 1) (fun i j _ => f (p + i) j 1)
    (fun x y a1 a2 b1 b2 mm ff hh => by
      rw [hf.get2 h.shel1 (by omega : 1 ≤ p + y) (by omega) a1 a2]
      exact hh.set2 (by omega) b1 b2 a1 a2 (f (p + y) x 1)) h0
    (fun i j k hi hv => by
      unfold InR at hi
      exact absurd ⟨rfl, rfl, by omega⟩ (hv j i (by omega) (by omega) (by omega) (by omega)))
  refine ⟨n, ?_, hn⟩
  unfold splitRowsStep
  rw [e0]
  simp only [Res.ok_bind]
  rw [e]
  rfl

theorem splitRows_loop [Zero α] {m : Mat α} (h : WF m) {f : Int → Int → Int → α} (hf : IsMat m m.rows m.cols m.shel f) (sizes : List Int)
    (hb : ∀ b ∈ sizes, 1 ≤ b) (acc : List (Mat α)) {p : Int} (hp : 0 ≤ p) (hc : p + sizes.sum ≤ m.rows) :
    ∃ l, sizes.foldlM (splitRowsStep m) (acc, p) = .ok (acc ++ l, p + sizes.sum) ∧ l.length = sizes.length ∧
      ∀ (k : Nat) b w, l[k]? = some b → sizes[k]? = some w → IsMat b w m.cols 1 (fun i j _ => f (p + (sizes.take k).sum + i) j 1) := by
  induction sizes generalizing acc p with
  | nil => exact ⟨[], by simp, rfl, by simp⟩
  | cons w sizes ih =>
    have hw := hb w (by simp)
    have hs := sum_nonneg (basis := sizes) (fun x hx => hb x (by simp [hx]))
    simp only [List.sum_cons] at hc
    obtain ⟨n, e, hn⟩ := splitRows_fits h hf acc hp hw (by omega)
    obtain ⟨l, e2, hl, hg⟩ := ih (fun x hx => hb x (by simp [hx])) (acc ++ [n]) (p := p + w) (by omega) (by omega)
    refine ⟨n :: l, ?_, by simp [hl], ?_⟩
    · rw [List.foldlM_cons, e, Res.ok_bind, e2]
      simp only [List.append_assoc, List.singleton_append, List.sum_cons]
      congr 2; omega
    · intro k b w' hk hw'
      cases k with
      | zero =>
        simp only [List.getElem?_cons_zero, Option.some.injEq] at hk hw'
        subst hk; subst hw'
        exact hn.congr (fun i j k _ => by simp)
      | succ k =>
        simp only [List.getElem?_cons_succ] at hk hw'
        exact (hg k b w' hk hw').congr (fun i j _ _ => by simp only [List.take_succ_cons, List.sum_cons]; congr 1; omega)

/-- C116 (splitting into rows): block sizes of at least 1 that do not exceed the height give that many blocks, in order, each holding the rows
after those of the blocks before it; rows left over are dropped. (Any other sizes end the process, C28.) -/
theorem C116_split_rows [Zero α] {m : Mat α} (h : WF m) (sizes : List Int) (hb : ∀ b ∈ sizes, 1 ≤ b) (hsum : sizes.sum ≤ m.rows) :
    ∃ l, splitMatrixIntoList sizes m "Rows".toList = .ok l ∧ l.length = sizes.length ∧
      ∀ (k : Nat) (b : Mat α) (w : Int), l[k]? = some b → sizes[k]? = some w →
        WF b ∧ b.rows = w ∧ b.cols = m.cols ∧ b.shel = 1 ∧
        ∀ i j, 1 ≤ j → j ≤ w → b.getElem2 j i = m.getElem2 ((sizes.take k).sum + j) i := by
  obtain ⟨f, hf⟩ := h.exists_isMat
  obtain ⟨l, e, hl, hg⟩ := splitRows_loop h hf sizes hb [] (p := 0) (by omega) (by omega)
  refine ⟨l, ?_, hl, ?_⟩
  · unfold splitMatrixIntoList
    rw [if_neg (by decide), if_pos rfl, e]; rfl
  · intro k b w hk hw
    have hR := hg k b w hk hw
    have hkl := (List.getElem?_eq_some_iff.1 hw).1
    have hwe : sizes[k] = w := (List.getElem?_eq_some_iff.1 hw).2
    have hw1 : 1 ≤ w := hwe ▸ hb _ (List.getElem_mem hkl)
    refine ⟨hR.wf hw1 h.cols1 (by omega), hR.rows, hR.cols, hR.shel, ?_⟩
    intro i j hj1 hj2
    have hst := sum_take_succ sizes k hkl
    have h0 := sum_take_nonneg hb k
    have hle : (sizes.take (k + 1)).sum ≤ m.rows := by
      have h1 := List.sum_append (l₁ := sizes.take (k+1)) (l₂ := sizes.drop (k+1))
      rw [List.take_append_drop] at h1
      have h2 := sum_nonneg (basis := sizes.drop (k+1)) (fun x hx => hb x (List.mem_of_mem_drop hx))
      omega
    rw [hR.get2_eq (by omega), hf.get2_eq h.shel1, show 0 + (sizes.take k).sum + j = (sizes.take k).sum + j by omega]
    congr 1
    apply propext; omega

/-- Three blocks of different heights, and lists that do not fit. -/
example : mergeListOfMatrices [⟨1, 2, 1, [some 1, some 2]⟩, ⟨2, 1, 1, [some 3, some 4]⟩] 2 4 "Columns".toList =
    .ok (⟨2, 4, 1, [some 1, some 2, some 3, some 0, some 0, some 0, some 4, some 0]⟩ : Mat Int) := by decide
example : mergeListOfMatrices [⟨1, 2, 1, [some 1, some 2]⟩, ⟨3, 1, 1, [some 3, some 4, some 5]⟩] 2 4 "Columns".toList =
    (.throw .runtimeError : Res (Mat Int)) := by decide
example : mergeListOfMatrices [⟨1, 2, 1, [some 1, some 2]⟩, ⟨3, 1, 1, [some 3, some 4, some 5]⟩] 3 2 "Columns".toList =
    (.exit 1 : Res (Mat Int)) := by decide
example : splitMatrixIntoList [1] ex23 "Rows".toList = .ok [⟨1, 3, 1, [some 1, some 2, some 3]⟩] := by decide

/-- C116 (target sizes): merging into a matrix with fewer than one row or column ends the process with status 1. -/
theorem C116_merge_target [Zero α] (l : List (Mat α)) {R C : Int} (h : R < 1 ∨ C < 1) (dir : Str) : mergeListOfMatrices l R C dir = .exit 1 := by
  unfold mergeListOfMatrices Mat.mk2
  by_cases h1 : R < 1
  · rw [if_pos h1]; rfl
  · rw [if_neg h1, if_pos (by omega)]; rfl

end Verif.QC
