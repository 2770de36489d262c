import Verif.Props.QCSwap
/-
Properties C27-C30: splitting and merging, unscrambling of coefficients and overlap.
-/
namespace Verif.QC
open Verif.Mat
variable {α : Type}

/-! ### C27 -/

theorem Rel2.get {β γ : Type} {R : β → γ → Prop} {l : List β} {k : List γ} (h : Rel2 R l k) {n : Nat} {b : β} {c : γ}
    (hb : l[n]? = some b) (hc : k[n]? = some c) : R b c := by
  induction h generalizing n with
  | nil => simp at hb
  | cons h _ ih =>
    cases n with
    | zero => simp at hb hc; subst hb; subst hc; exact h
    | succ n => exact ih (by simpa using hb) (by simpa using hc)

theorem ColsAre.whole {m m' : Mat α} {r c : Int} {f : Int → Int → Int → α} (h : IsMat m r c 1 f) (hc : 0 ≤ c)
    (h' : ColsAre m' r (fun i j => f i j 1) (irange 1 c)) : m' = m :=
  IsMat.ext h' (isMat_colsAre h hc)

theorem RowsAre.whole {m m' : Mat α} {r c : Int} {f : Int → Int → Int → α} (h : IsMat m r c 1 f) (hr : 0 ≤ r)
    (h' : RowsAre m' c (fun i j => f i j 1) (irange 1 r)) : m' = m :=
  IsMat.ext h' (isMat_rowsAre h hr)

theorem ne_nil_of_sum {basis : List Int} {c : Int} (h : basis.sum = c) (hc : 1 ≤ c) : basis ≠ [] := by
  rintro rfl; simp at h; omega

/-- C27 (columns): splitting into blocks with sizes `≥ 1` adding up to the width and merging back with the original
dimensions gives the very same matrix. -/
theorem C27_split_merge_cols [Zero α] {m : Mat α} (h : WF m) (hs : m.shel = 1) (sizes : List Int)
    (hb : ∀ b ∈ sizes, 1 ≤ b) (hsum : sizes.sum = m.cols) :
    ∃ l, splitMatrixIntoList sizes m "Columns".toList = .ok l ∧ l.length = sizes.length ∧
      mergeListOfMatrices l m.rows m.cols "Columns".toList = .ok m := by
  obtain ⟨f, hf⟩ := h.exists_isMat
  rw [hs] at hf
  have hc := h.cols1
  have hm : ColsAre m m.rows (fun i j => f i j 1) (irange 1 sizes.sum) := by rw [hsum]; exact isMat_colsAre hf (by omega)
  obtain ⟨l, e, hl⟩ := splitAtoms_cols h.rows1 hb hm
  obtain ⟨m', e', hm'⟩ := mergeAtoms_cols h.rows1 hb (ne_nil_of_sum hsum hc) (List.Perm.refl _) hl
  refine ⟨l, e, by rw [hl.length_eq]; simp, ?_⟩
  rw [colsOf_all hb, hsum] at hm'
  rw [← hsum, e', ColsAre.whole hf (by omega) hm']

/-- C27 (rows). -/
theorem C27_split_merge_rows [Zero α] {m : Mat α} (h : WF m) (hs : m.shel = 1) (sizes : List Int)
    (hb : ∀ b ∈ sizes, 1 ≤ b) (hsum : sizes.sum = m.rows) :
    ∃ l, splitMatrixIntoList sizes m "Rows".toList = .ok l ∧ l.length = sizes.length ∧
      mergeListOfMatrices l m.rows m.cols "Rows".toList = .ok m := by
  obtain ⟨f, hf⟩ := h.exists_isMat
  rw [hs] at hf
  have hr := h.rows1
  have hm : RowsAre m m.cols (fun i j => f i j 1) (irange 1 sizes.sum) := by rw [hsum]; exact isMat_rowsAre hf (by omega)
  obtain ⟨l, e, hl⟩ := splitAtoms_rows h.cols1 hb hm
  obtain ⟨m', e', hm'⟩ := mergeAtoms_rows h.cols1 hb (ne_nil_of_sum hsum hr) (List.Perm.refl _) hl
  refine ⟨l, e, by rw [hl.length_eq]; simp, ?_⟩
  rw [colsOf_all hb, hsum] at hm'
  rw [← hsum, e', RowsAre.whole hf (by omega) hm']

/-- C27 (the blocks themselves): block `k` has `sizes[k]` columns, which are the columns following those of the blocks
before it. -/
theorem C27_blocks [Zero α] {m : Mat α} (h : WF m) (hs : m.shel = 1) (sizes : List Int)
    (hb : ∀ b ∈ sizes, 1 ≤ b) (hsum : sizes.sum = m.cols) :
    ∃ l, splitMatrixIntoList sizes m "Columns".toList = .ok l ∧ l.length = sizes.length ∧
      ∀ (k : Nat) (b : Mat α) (w : Int), l[k]? = some b → sizes[k]? = some w →
        WF b ∧ b.rows = m.rows ∧ b.cols = w ∧ b.shel = 1 ∧
        ∀ i j, 1 ≤ j → j ≤ w → b.getElem2 i j = m.getElem2 i ((sizes.take k).sum + j) := by
  obtain ⟨f, hf⟩ := h.exists_isMat
  rw [hs] at hf
  have hc := h.cols1
  have hm : ColsAre m m.rows (fun i j => f i j 1) (irange 1 sizes.sum) := by rw [hsum]; exact isMat_colsAre hf (by omega)
  obtain ⟨l, e, hl⟩ := splitAtoms_cols h.rows1 hb hm
  refine ⟨l, e, by rw [hl.length_eq]; simp, ?_⟩
  intro k b w hk hw
  have hkl := (List.getElem?_eq_some_iff.1 hw).1
  have hwe : sizes[k] = w := (List.getElem?_eq_some_iff.1 hw).2
  have hi : (irange 1 (sizes.length : Int))[k]? = some ((k : Int) + 1) := by
    rw [List.getElem?_eq_getElem (by simp; omega), getElem_irange]; congr 1; omega
  have hR := hl.get hk hi
  have hal := atomCols_length hb hkl
  rw [hwe] at hal
  have hw1 : 1 ≤ w := hwe ▸ hb _ (List.getElem_mem hkl)
  unfold ColsAre at hR
  rw [hal] at hR
  refine ⟨hR.wf h.rows1 hw1 (by omega), hR.rows, hR.cols, hR.shel, ?_⟩
  intro i j hj1 hj2
  rw [hR.get2_eq (by omega), hf.get2_eq (by omega)]
  have hst := sum_take_succ sizes k hkl
  have h0 := sum_take_nonneg hb k
  have hle : (sizes.take (k + 1)).sum ≤ m.cols := by
    rw [← hsum]
    have h1 := List.sum_append (l₁ := sizes.take (k+1)) (l₂ := sizes.drop (k+1))
    rw [List.take_append_drop] at h1
    have h2 := sum_nonneg (basis := sizes.drop (k+1)) (fun x hx => hb x (List.mem_of_mem_drop hx))
    omega
  have e1 : (atomCols sizes ((k : Int) + 1)).getD (j - 1).toNat 0 = (sizes.take k).sum + j := by
    have hlt : (j - 1).toNat < (atomCols sizes ((k : Int) + 1)).length := by omega
    rw [List.getD_eq_getElem?_getD, List.getElem?_eq_getElem hlt]
    simp only [atomCols, Option.getD_some, getElem_irange]
    have : ((k : Int) + 1 - 1).toNat = k := by omega
    rw [this]; omega
  rw [e1]
  congr 1
  apply propext; omega

example : splitMatrixIntoList [1, 2] ex23 "Columns".toList =
    .ok [⟨2, 1, 1, [some 1, some 4]⟩, ⟨2, 2, 1, [some 2, some 3, some 5, some 6]⟩] := by decide

/-! ### C28 -/

/-- A loop in which every iteration keeps `Q` or fails in the same way does one of these. -/
theorem foldlM_or {σ ι : Type} {fail : Res σ} (hfail : ∀ f : σ → Res σ, (fail >>= f) = fail)
    (Q : σ → Prop) (body : σ → ι → Res σ) (L : List ι)
    (step : ∀ x ∈ L, ∀ s, Q s → body s x = fail ∨ ∃ s', body s x = .ok s' ∧ Q s') {s : σ} (h : Q s) :
    L.foldlM body s = fail ∨ ∃ s', L.foldlM body s = .ok s' ∧ Q s' := by
  induction L generalizing s with
  | nil => exact Or.inr ⟨s, rfl, h⟩
  | cons x L ih =>
    rw [List.foldlM_cons]
    rcases step x (by simp) s h with e | ⟨s', e, hs'⟩
    · left; rw [e, hfail]
    · rw [e]; simp only [Res.ok_bind]
      exact ih (fun y hy => step y (by simp [hy])) hs'

private theorem fillStep {m new : Mat α} (h : WF m) {R C : Int} (hn : ∃ f, IsMat new R C 1 f) {a b c d : Int}
    (hin : 1 ≤ c ∧ c ≤ R ∧ 1 ≤ d ∧ d ≤ C) :
    (m.getElem2 a b >>= fun v => new.setElem2 v c d) = .exit 1 ∧ ¬ (1 ≤ a ∧ a ≤ m.rows ∧ 1 ≤ b ∧ b ≤ m.cols) ∨
    ∃ new', (m.getElem2 a b >>= fun v => new.setElem2 v c d) = .ok new' ∧ ∃ f, IsMat new' R C 1 f := by
  obtain ⟨f, hf⟩ := h.exists_isMat
  rw [hf.get2_eq h.shel1]
  split
  · right
    obtain ⟨g, hg⟩ := hn
    obtain ⟨n', e, h'⟩ := hg.set2 (by omega) hin.1 hin.2.1 hin.2.2.1 hin.2.2.2 (f a b 1)
    exact ⟨n', by simpa using e, _, h'⟩
  · rename_i hne; exact Or.inl ⟨rfl, hne⟩

private theorem splitColsStep_cases [Zero α] {m : Mat α} (h : WF m) (acc : List (Mat α)) (col sz : Int) (_ : 0 ≤ col) :
    (splitColsStep m (acc, col) sz = .exit 1) ∨
    (1 ≤ sz ∧ col + sz ≤ m.cols ∧ ∃ n, splitColsStep m (acc, col) sz = .ok (acc ++ [n], col + sz)) := by
  have hr := h.rows1
  unfold splitColsStep
  by_cases hsz : sz < 1
  · left; unfold Mat.mk2; rw [if_neg (by omega), if_pos hsz]; rfl
  · obtain ⟨m1, e1, h1⟩ := mk2_isMat (α := α) hr (show 1 ≤ sz by omega)
    rw [e1]
    simp only [Res.ok_bind]
    rw [forRange_nest]
    let L := (irange 1 m.rows).flatMap (fun i => (irange 1 sz).map (fun j => (i, j)))
    let body := fun (new : Mat α) (p : Int × Int) => (do
      let v ← m.getElem2 p.1 (col + p.2)
      new.setElem2 v p.1 p.2)
    have hstep : ∀ x ∈ L, ∀ s, (∃ f, IsMat s m.rows sz 1 f) → body s x = .exit 1 ∨
        ∃ s', body s x = .ok s' ∧ ∃ f, IsMat s' m.rows sz 1 f := by
      intro x hx s hs
      obtain ⟨⟨a1, a2⟩, a3, a4⟩ := mem_pairs.1 hx
      rcases fillStep h hs (a := x.1) (b := col + x.2) ⟨a1, a2, a3, a4⟩ with ⟨e, _⟩ | e
      · exact Or.inl e
      · exact Or.inr e
    by_cases hfit : col + sz ≤ m.cols
    · rcases foldlM_or (fail := .exit 1) (fun _ => rfl) _ body L hstep ⟨_, h1⟩ with e | ⟨n, e, _⟩
      · left; exact (congrArg (· >>= _) e).trans rfl
      · right; exact ⟨by omega, hfit, n, (congrArg (· >>= _) e).trans rfl⟩
    · left
      have e := foldlM_fail (fail := .exit 1) (fun _ => rfl) _ body L hstep
        ⟨(1, sz), mem_pairs.2 ⟨⟨by simp, by simpa using hr⟩, by simp; omega, by simp⟩, by
          intro s hs
          rcases fillStep h hs (a := 1) (b := col + sz) (c := 1) (d := sz) ⟨by omega, hr, by omega, by omega⟩ with ⟨e, _⟩ | e
          · exact e
          · exfalso
            obtain ⟨f, hf⟩ := h.exists_isMat
            obtain ⟨n', e, -⟩ := e
            rw [hf.get2_eq h.shel1, if_neg (by omega)] at e
            cases e⟩ ⟨_, h1⟩
      exact (congrArg (· >>= _) e).trans rfl

private theorem splitRowsStep_cases [Zero α] {m : Mat α} (h : WF m) (acc : List (Mat α)) (row sz : Int) (_ : 0 ≤ row) :
    (splitRowsStep m (acc, row) sz = .exit 1) ∨
    (1 ≤ sz ∧ row + sz ≤ m.rows ∧ ∃ n, splitRowsStep m (acc, row) sz = .ok (acc ++ [n], row + sz)) := by
  have hr := h.cols1
  unfold splitRowsStep
  by_cases hsz : sz < 1
  · left; unfold Mat.mk2; rw [if_pos hsz]; rfl
  · obtain ⟨m1, e1, h1⟩ := mk2_isMat (α := α) (show 1 ≤ sz by omega) hr
    rw [e1]
    simp only [Res.ok_bind]
    rw [forRange_nest]
    let L := (irange 1 m.cols).flatMap (fun i => (irange 1 sz).map (fun j => (i, j)))
    let body := fun (new : Mat α) (p : Int × Int) => (do
      let v ← m.getElem2 (row + p.2) p.1
      new.setElem2 v p.2 p.1)
    have hstep : ∀ x ∈ L, ∀ s, (∃ f, IsMat s sz m.cols 1 f) → body s x = .exit 1 ∨
        ∃ s', body s x = .ok s' ∧ ∃ f, IsMat s' sz m.cols 1 f := by
      intro x hx s hs
      obtain ⟨⟨a1, a2⟩, a3, a4⟩ := mem_pairs.1 hx
      rcases fillStep h hs (a := row + x.2) (b := x.1) ⟨a3, a4, a1, a2⟩ with ⟨e, _⟩ | e
      · exact Or.inl e
      · exact Or.inr e
    by_cases hfit : row + sz ≤ m.rows
    · rcases foldlM_or (fail := .exit 1) (fun _ => rfl) _ body L hstep ⟨_, h1⟩ with e | ⟨n, e, _⟩
      · left; exact (congrArg (· >>= _) e).trans rfl
      · right; exact ⟨by omega, hfit, n, (congrArg (· >>= _) e).trans rfl⟩
    · left
      have e := foldlM_fail (fail := .exit 1) (fun _ => rfl) _ body L hstep
        ⟨(1, sz), mem_pairs.2 ⟨⟨by simp, by simpa using hr⟩, by simp; omega, by simp⟩, by
          intro s hs
          rcases fillStep h hs (a := row + sz) (b := 1) (c := sz) (d := 1) ⟨by omega, by omega, by omega, hr⟩ with ⟨e, _⟩ | e
          · exact e
          · exfalso
            obtain ⟨f, hf⟩ := h.exists_isMat
            obtain ⟨n', e, -⟩ := e
            rw [hf.get2_eq h.shel1, if_neg (by omega)] at e
            cases e⟩ ⟨_, h1⟩
      exact (congrArg (· >>= _) e).trans rfl

private theorem split_exit {step : List (Mat α) × Int → Int → Res (List (Mat α) × Int)} {w : Int}
    (hstep : ∀ acc (col sz : Int), 0 ≤ col → step (acc, col) sz = .exit 1 ∨
      (1 ≤ sz ∧ col + sz ≤ w ∧ ∃ n, step (acc, col) sz = .ok (acc ++ [n], col + sz))) :
    ∀ (sizes : List Int) (acc : List (Mat α)) (col : Int), 0 ≤ col → col ≤ w →
      ((∃ b ∈ sizes, b < 1) ∨ col + sizes.sum > w) → sizes.foldlM step (acc, col) = .exit 1 := by
  intro sizes
  induction sizes with
  | nil =>
    intro acc col h0 hw h
    simp at h; omega
  | cons sz sizes ih =>
    intro acc col h0 hw h
    rw [List.foldlM_cons]
    rcases hstep acc col sz h0 with e | ⟨h1, h2, n, e⟩
    · rw [e]; rfl
    · rw [e]
      simp only [Res.ok_bind]
      refine ih _ _ (by omega) h2 ?_
      rcases h with ⟨b, hb, hb1⟩ | h
      · rcases List.mem_cons.1 hb with rfl | hb
        · omega
        · exact Or.inl ⟨b, hb, hb1⟩
      · right; simp only [List.sum_cons] at h; omega

/-- C28: impossible block structures end the process with status 1. -/
theorem C28_rejects [Zero α] {m : Mat α} (h : WF m) (sizes : List Int) :
    (((∃ b ∈ sizes, b < 1) ∨ sizes.sum > m.cols) → splitMatrixIntoList sizes m "Columns".toList = .exit 1) ∧
    (((∃ b ∈ sizes, b < 1) ∨ sizes.sum > m.rows) → splitMatrixIntoList sizes m "Rows".toList = .exit 1) := by
  have hc := h.cols1
  have hr := h.rows1
  constructor
  · intro hbad
    unfold splitMatrixIntoList
    rw [if_pos rfl, split_exit (w := m.cols) (fun acc col sz h0 => splitColsStep_cases h acc col sz h0) sizes [] 0 (by omega)
      (by omega) (by simpa using hbad)]
    rfl
  · intro hbad
    unfold splitMatrixIntoList
    rw [if_neg (by decide), if_pos rfl, split_exit (w := m.rows) (fun acc col sz h0 => splitRowsStep_cases h acc col sz h0) sizes [] 0
      (by omega) (by omega) (by simpa using hbad)]
    rfl

/-- C28: an unknown direction is rejected with `invalid_argument`, by splitting and by merging. -/
theorem C28_direction [Zero α] (m : Mat α) (sizes : List Int) (dir : Str) (h1 : dir ≠ "Columns".toList) (h2 : dir ≠ "Rows".toList) :
    splitMatrixIntoList sizes m dir = .throw .invalidArgument ∧
    ∀ l (r c : Int), 1 ≤ r → 1 ≤ c → mergeListOfMatrices (α := α) l r c dir = .throw .invalidArgument := by
  constructor
  · unfold splitMatrixIntoList; rw [if_neg h1, if_neg h2]
  · intro l r c hr hc
    obtain ⟨m0, e0, -⟩ := mk2_isMat (α := α) hr hc
    unfold mergeListOfMatrices
    rw [e0]
    simp only [Res.ok_bind]
    rw [if_neg h1, if_neg h2]

example : splitMatrixIntoList [2, 2] ex23 "Columns".toList = .exit 1 := by decide
example : splitMatrixIntoList [0, 3] ex23 "Columns".toList = .exit 1 := by decide
example : splitMatrixIntoList [1, 2] ex23 "Diagonals".toList = .throw .invalidArgument := by decide

/-! ### C29, C30 -/

theorem cols_read {m m' : Mat α} {r c : Int} {f : Int → Int → Int → α} (hm : IsMat m r c 1 f) {ix : List Int}
    (hlen : (ix.length : Int) = c) (hix : ∀ x ∈ ix, 1 ≤ x ∧ x ≤ c) (hm' : ColsAre m' r (fun i j => f i j 1) ix) (i : Int) (q : Nat)
    (k : Int) (hq : ix[q]? = some k) : m'.getElem2 i (q + 1) = m.getElem2 i k := by
  have h1 := hix k (List.mem_of_getElem? hq)
  have h2 := (List.getElem?_eq_some_iff.1 hq).1
  rw [IsMat.get2_eq hm' (by omega), hm.get2_eq (by omega)]
  have e : ix.getD ((q : Int) + 1 - 1).toNat 0 = k := by
    have : ((q : Int) + 1 - 1).toNat = q := by omega
    rw [this, List.getD_eq_getElem?_getD, hq]; rfl
  rw [e]
  congr 1
  apply propext; omega

/-- C29 + C30. For matches naming existing dimer atoms, none twice, there is one arrangement of all atoms, starting with
the requested ones (`rest` is empty when all atoms are requested), such that
* `unscramble_Coef` returns the matrix whose columns are, in this order, the column blocks of these atoms, nothing lost
  or duplicated (the column numbers are a permutation of `1..width`);
* `unscramble_S` of a square matrix applies the same permutation to rows and columns. -/
theorem C29_C30_unscramble [Zero α] (A B basis : List Int) (hb : ∀ b ∈ basis, 1 ≤ b) (hne : basis ≠ [])
    (h : InjectiveMatch basis.length (A ++ B)) :
    ∃ rest, (A ++ B ++ rest).Perm (irange 1 basis.length) ∧
      (colsOf basis (A ++ B ++ rest)).Perm (irange 1 basis.sum) ∧
      (∀ coef : Mat α, WF coef → coef.shel = 1 → coef.cols = basis.sum →
        ∃ m', unscrambleCoef2 A B basis coef = .ok m' ∧ WF m' ∧ m'.rows = coef.rows ∧ m'.cols = coef.cols ∧ m'.shel = 1 ∧
          ∀ i (q : Nat) c, (colsOf basis (A ++ B ++ rest))[q]? = some c → m'.getElem2 i (q + 1) = coef.getElem2 i c) ∧
      (∀ S : Mat α, WF S → S.shel = 1 → S.cols = basis.sum → S.rows = basis.sum →
        ∃ S', unscrambleS2 A B basis S = .ok S' ∧ WF S' ∧ S'.rows = S.rows ∧ S'.cols = S.cols ∧ S'.shel = 1 ∧
          ∀ (p q : Nat) r c, (colsOf basis (A ++ B ++ rest))[p]? = some r → (colsOf basis (A ++ B ++ rest))[q]? = some c →
            S'.getElem2 (p + 1) (q + 1) = S.getElem2 r c) := by
  obtain ⟨y, hy, ⟨rest, rfl⟩, hC, hR⟩ := unscramble2_ok (α := α) hb hne h
  have hperm := colsOf_perm hb hy
  have hsum := sum_pos hb hne
  have hlen : ((colsOf basis (A ++ B ++ rest)).length : Int) = basis.sum := by
    rw [hperm.length_eq]; exact irange_length_of_nonneg (by omega)
  have hmem : ∀ x ∈ colsOf basis (A ++ B ++ rest), 1 ≤ x ∧ x ≤ basis.sum := fun x hx => mem_irange.1 (hperm.mem_iff.1 hx)
  refine ⟨rest, hy, hperm, ?_, ?_⟩
  · intro coef hw hs hc
    obtain ⟨f, hf⟩ := hw.exists_isMat
    rw [hs, hc] at hf
    obtain ⟨m', e, hm'⟩ := hC coef coef.rows _ hw.rows1 (isMat_colsAre hf (by omega))
    refine ⟨m', e, ?_, hm'.rows, by rw [hm'.cols, hlen, hc], hm'.shel, ?_⟩
    · exact IsMat.wf hm' hw.rows1 (by omega) (by omega)
    · intro i q c hq
      exact cols_read hf hlen hmem hm' i q c hq
  · intro S hw hs hc hr
    obtain ⟨f, hf⟩ := hw.exists_isMat
    rw [hs, hc, hr] at hf
    obtain ⟨S1, e, h1⟩ := hC S basis.sum _ hsum (isMat_colsAre hf (by omega))
    obtain ⟨S2, e2, h2⟩ := hR S1 basis.sum _ hsum (both_sides hsum hlen h1)
    have h2' := h2
    unfold RowsAre at h2'
    rw [hlen] at h2'
    refine ⟨S2, by rw [unscrambleS2_eq, e]; exact e2, h2'.wf hsum hsum (by omega), by rw [h2'.rows, hr], by rw [h2'.cols, hc],
      h2'.shel, ?_⟩
    intro p q r c hp hq
    have hp1 := (List.getElem?_eq_some_iff.1 hp).1
    have hq1 := (List.getElem?_eq_some_iff.1 hq).1
    have hr1 := hmem r (List.mem_of_getElem? hp)
    have hc1 := hmem c (List.mem_of_getElem? hq)
    rw [h2'.get2 (by omega) (by omega) (by omega) (by omega) (by omega),
      hf.get2 (by omega) hr1.1 hr1.2 hc1.1 hc1.2]
    have ep : ((p : Int) + 1 - 1).toNat = p := by omega
    have eq : ((q : Int) + 1 - 1).toNat = q := by omega
    simp only [List.getD_eq_getElem?_getD, ep, eq, hp, hq, Option.getD_some]

/-- C29 + C30 for the one-monomer functions (counterpoise). -/
theorem C29_C30_unscramble_one [Zero α] (A basis : List Int) (hb : ∀ b ∈ basis, 1 ≤ b) (hne : basis ≠ [])
    (h : InjectiveMatch basis.length A) :
    ∃ rest, (A ++ rest).Perm (irange 1 basis.length) ∧
      (colsOf basis (A ++ rest)).Perm (irange 1 basis.sum) ∧
      (∀ coef : Mat α, WF coef → coef.shel = 1 → coef.cols = basis.sum →
        ∃ m', unscrambleCoef1 A basis coef = .ok m' ∧ WF m' ∧ m'.rows = coef.rows ∧ m'.cols = coef.cols ∧ m'.shel = 1 ∧
          ∀ i (q : Nat) c, (colsOf basis (A ++ rest))[q]? = some c → m'.getElem2 i (q + 1) = coef.getElem2 i c) ∧
      (∀ S : Mat α, WF S → S.shel = 1 → S.cols = basis.sum → S.rows = basis.sum →
        ∃ S', unscrambleS1 A basis S = .ok S' ∧ WF S' ∧ S'.rows = S.rows ∧ S'.cols = S.cols ∧ S'.shel = 1 ∧
          ∀ (p q : Nat) r c, (colsOf basis (A ++ rest))[p]? = some r → (colsOf basis (A ++ rest))[q]? = some c →
            S'.getElem2 (p + 1) (q + 1) = S.getElem2 r c) := by
  obtain ⟨y, hy, ⟨rest, rfl⟩, hC, hR⟩ := unscramble1_ok (α := α) hb hne h
  have hperm := colsOf_perm hb hy
  have hsum := sum_pos hb hne
  have hlen : ((colsOf basis (A ++ rest)).length : Int) = basis.sum := by
    rw [hperm.length_eq]; exact irange_length_of_nonneg (by omega)
  have hmem : ∀ x ∈ colsOf basis (A ++ rest), 1 ≤ x ∧ x ≤ basis.sum := fun x hx => mem_irange.1 (hperm.mem_iff.1 hx)
  refine ⟨rest, hy, hperm, ?_, ?_⟩
  · intro coef hw hs hc
    obtain ⟨f, hf⟩ := hw.exists_isMat
    rw [hs, hc] at hf
    obtain ⟨m', e, hm'⟩ := hC coef coef.rows _ hw.rows1 (isMat_colsAre hf (by omega))
    refine ⟨m', e, ?_, hm'.rows, by rw [hm'.cols, hlen, hc], hm'.shel, ?_⟩
    · exact IsMat.wf hm' hw.rows1 (by omega) (by omega)
    · intro i q c hq
      exact cols_read hf hlen hmem hm' i q c hq
  · intro S hw hs hc hr
    obtain ⟨f, hf⟩ := hw.exists_isMat
    rw [hs, hc, hr] at hf
    obtain ⟨S1, e, h1⟩ := hC S basis.sum _ hsum (isMat_colsAre hf (by omega))
    obtain ⟨S2, e2, h2⟩ := hR S1 basis.sum _ hsum (both_sides hsum hlen h1)
    have h2' := h2
    unfold RowsAre at h2'
    rw [hlen] at h2'
    refine ⟨S2, by rw [unscrambleS1_eq, e]; exact e2, h2'.wf hsum hsum (by omega), by rw [h2'.rows, hr], by rw [h2'.cols, hc],
      h2'.shel, ?_⟩
    intro p q r c hp hq
    have hp1 := (List.getElem?_eq_some_iff.1 hp).1
    have hq1 := (List.getElem?_eq_some_iff.1 hq).1
    have hr1 := hmem r (List.mem_of_getElem? hp)
    have hc1 := hmem c (List.mem_of_getElem? hq)
    rw [h2'.get2 (by omega) (by omega) (by omega) (by omega) (by omega),
      hf.get2 (by omega) hr1.1 hr1.2 hc1.1 hc1.2]
    have ep : ((p : Int) + 1 - 1).toNat = p := by omega
    have eq : ((q : Int) + 1 - 1).toNat = q := by omega
    simp only [List.getD_eq_getElem?_getD, ep, eq, hp, hq, Option.getD_some]

/-- C29 for a complete match: the columns of the result are the blocks of the matched atoms, A then B, and nothing
else. -/
theorem C29_complete [Zero α] (A B basis : List Int) (hb : ∀ b ∈ basis, 1 ≤ b) (hne : basis ≠ [])
    (h : InjectiveMatch basis.length (A ++ B)) (hall : A.length + B.length = basis.length)
    (coef : Mat α) (hw : WF coef) (hs : coef.shel = 1) (hc : coef.cols = basis.sum) :
    ∃ m', unscrambleCoef2 A B basis coef = .ok m' ∧ WF m' ∧ m'.rows = coef.rows ∧ m'.cols = coef.cols ∧ m'.shel = 1 ∧
      (colsOf basis (A ++ B)).Perm (irange 1 coef.cols) ∧
      ∀ i (q : Nat) c, (colsOf basis (A ++ B))[q]? = some c → m'.getElem2 i (q + 1) = coef.getElem2 i c := by
  obtain ⟨rest, h1, h2, h3, -⟩ := C29_C30_unscramble (α := α) A B basis hb hne h
  have hrest : rest = [] := by
    have := h1.length_eq
    simp only [List.length_append, length_irange] at this
    exact List.eq_nil_of_length_eq_zero (by omega)
  subst hrest
  rw [List.append_nil] at h2 h3
  obtain ⟨m', e, a1, a2, a3, a4, a5⟩ := h3 coef hw hs hc
  exact ⟨m', e, a1, a2, a3, a4, by rw [hc]; exact h2, a5⟩

/-- C30: a symmetric overlap stays symmetric. -/
theorem C30_symmetric [Zero α] (A B basis : List Int) (hb : ∀ b ∈ basis, 1 ≤ b) (hne : basis ≠ [])
    (h : InjectiveMatch basis.length (A ++ B)) (S : Mat α) (hw : WF S) (hs : S.shel = 1) (hc : S.cols = basis.sum)
    (hr : S.rows = basis.sum) (hsym : ∀ i j, S.getElem2 i j = S.getElem2 j i) :
    ∃ S', unscrambleS2 A B basis S = .ok S' ∧ ∀ i j, S'.getElem2 i j = S'.getElem2 j i := by
  obtain ⟨rest, h1, h2, -, h4⟩ := C29_C30_unscramble (α := α) A B basis hb hne h
  obtain ⟨S', e, a1, a2, a3, a4, a5⟩ := h4 S hw hs hc hr
  refine ⟨S', e, ?_⟩
  obtain ⟨f, hf⟩ := a1.exists_isMat
  have hsum := sum_pos hb hne
  have hlen : ((colsOf basis (A ++ B ++ rest)).length : Int) = basis.sum := by
    rw [h2.length_eq]; exact irange_length_of_nonneg (by omega)
  have key : ∀ i j, 1 ≤ i → i ≤ basis.sum → 1 ≤ j → j ≤ basis.sum → S'.getElem2 i j = S'.getElem2 j i := by
    intro i j i1 i2 j1 j2
    obtain ⟨r, hr'⟩ : ∃ r, (colsOf basis (A ++ B ++ rest))[(i - 1).toNat]? = some r :=
      ⟨_, List.getElem?_eq_getElem (by omega)⟩
    obtain ⟨c, hc'⟩ : ∃ c, (colsOf basis (A ++ B ++ rest))[(j - 1).toNat]? = some c :=
      ⟨_, List.getElem?_eq_getElem (by omega)⟩
    have x1 := a5 _ _ _ _ hr' hc'
    have x2 := a5 _ _ _ _ hc' hr'
    have ei : (((i - 1).toNat : Nat) : Int) + 1 = i := by omega
    have ej : (((j - 1).toNat : Nat) : Int) + 1 = j := by omega
    rw [ei, ej] at x1 x2
    rw [x1, x2, hsym]
  intro i j
  by_cases hin : (1 ≤ i ∧ i ≤ basis.sum) ∧ (1 ≤ j ∧ j ≤ basis.sum)
  · exact key i j hin.1.1 hin.1.2 hin.2.1 hin.2.2
  · rw [hf.get2_eq a1.shel1, hf.get2_eq a1.shel1, if_neg (by omega), if_neg (by omega)]

example : InjectiveMatch 3 ([2] ++ [3, 1]) ∧ colsOf [1, 1, 1] ([2] ++ [3, 1]) = [2, 3, 1] := by decide
example : unscrambleCoef2 [2] [3, 1] [1, 1, 1] ex23 = .ok ⟨2, 3, 1, [some 2, some 3, some 1, some 5, some 6, some 4]⟩ := by decide
example : unscrambleS2 [2] [1] [1, 2] (⟨3, 3, 1, [some 1, some 2, some 3, some 4, some 5, some 6, some 7, some 8, some 9]⟩ : Mat Int)
    = .ok ⟨3, 3, 1, [some 5, some 6, some 4, some 8, some 9, some 7, some 2, some 3, some 1]⟩ := by decide

end Verif.QC
