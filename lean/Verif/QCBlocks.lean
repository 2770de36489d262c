import Verif.QCSwap
import Verif.MatrixBridge
/-
Splitting a matrix into blocks of columns (rows) and merging blocks.
-/
namespace Verif.QC
open Mat
variable {α : Type}

/-- The columns of `m` are the columns `ix` of `f`, in this order. -/
def ColsAre (m : Mat α) (r : Int) (f : Int → Int → α) (ix : List Int) : Prop :=
  IsMat m r ix.length 1 (fun i j _ => f i (ix.getD (j - 1).toNat 0))

/-- The rows of `m` are the rows `ix` of `f`, in this order. -/
def RowsAre (m : Mat α) (c : Int) (f : Int → Int → α) (ix : List Int) : Prop :=
  IsMat m ix.length c 1 (fun i j _ => f (ix.getD (i - 1).toNat 0) j)

theorem getD_mid {pre b post : List Int} {n : Nat} (h : n < b.length) :
    (pre ++ (b ++ post)).getD (pre.length + n) 0 = b.getD n 0 := by
  simp only [List.getD_eq_getElem?_getD]
  rw [List.getElem?_append_right (by omega), Nat.add_sub_cancel_left, List.getElem?_append_left h]

/-! ### splitting -/

theorem splitColsStep_ok [Zero α] {m : Mat α} {r : Int} {f : Int → Int → α} {pre b post : List Int}
    (h : ColsAre m r f (pre ++ (b ++ post))) (hr : 1 ≤ r) (hb : b ≠ []) (acc : List (Mat α)) :
    ∃ n, splitColsStep m (acc, (pre.length : Int)) b.length = .ok (acc ++ [n], ((pre ++ b).length : Int)) ∧ ColsAre n r f b := by
  have hbl : 1 ≤ (b.length : Int) := by
    have := List.length_pos_iff.2 hb; omega
  obtain ⟨m1, e1, h1⟩ := mk2_isMat (α := α) hr hbl
  have hlen : ((pre ++ (b ++ post)).length : Int) = pre.length + b.length + post.length := by simp; omega
  obtain ⟨m2, e2, h2⟩ := IsMat.fill2 (lo := 1) (hi := r) (lo2 := 1) (hi2 := (b.length : Int))
    (fun (new : Mat α) k j => do let v ← m.getElem2 k (pre.length + j); new.setElem2 v k j)
    (fun k _ => k) (fun _ j => j) (fun _ _ => 1) (fun i j _ => f i (b.getD (j - 1).toNat 0))
    (fun x y a1 a2 a3 a4 mm ff hh => by
      rw [h.get2 (by omega) a1 a2 (by omega) (by omega)]
      have : ((pre.length : Int) + y - 1).toNat = pre.length + (y - 1).toNat := by omega
      rw [this, getD_mid (by omega)]
      exact hh.set2 (by omega) a1 a2 a3 a4 _) h1
    (fun i j k hi hv => absurd ⟨rfl, rfl, by have := hi; unfold InR at this; omega⟩
        (hv i j hi.1 hi.2.1 hi.2.2.1 hi.2.2.2.1))
  refine ⟨m2, ?_, h2⟩
  unfold splitColsStep
  rw [h.rows, e1]
  simp only [Res.ok_bind]
  rw [e2]
  simp

theorem splitRowsStep_ok [Zero α] {m : Mat α} {c : Int} {f : Int → Int → α} {pre b post : List Int}
    (h : RowsAre m c f (pre ++ (b ++ post))) (hc : 1 ≤ c) (hb : b ≠ []) (acc : List (Mat α)) :
    ∃ n, splitRowsStep m (acc, (pre.length : Int)) b.length = .ok (acc ++ [n], ((pre ++ b).length : Int)) ∧ RowsAre n c f b := by
  have hbl : 1 ≤ (b.length : Int) := by
    have := List.length_pos_iff.2 hb; omega
  obtain ⟨m1, e1, h1⟩ := mk2_isMat (α := α) hbl hc
  have hlen : ((pre ++ (b ++ post)).length : Int) = pre.length + b.length + post.length := by simp; omega
  obtain ⟨m2, e2, h2⟩ := IsMat.fill2 (lo := 1) (hi := c) (lo2 := 1) (hi2 := (b.length : Int))
    (fun (new : Mat α) k j => do let v ← m.getElem2 (pre.length + j) k; new.setElem2 v j k)
    (fun _ j => j) (fun k _ => k) (fun _ _ => 1) (fun i j _ => f (b.getD (i - 1).toNat 0) j)
    (fun x y a1 a2 a3 a4 mm ff hh => by
      rw [h.get2 (by omega) (by omega) (by omega) a1 a2]
      have : ((pre.length : Int) + y - 1).toNat = pre.length + (y - 1).toNat := by omega
      rw [this, getD_mid (by omega)]
      exact hh.set2 (by omega) a3 a4 a1 a2 _) h1
    (fun i j k hi hv => absurd ⟨rfl, rfl, by have := hi; unfold InR at this; omega⟩
        (hv j i hi.2.2.1 hi.2.2.2.1 hi.1 hi.2.1))
  refine ⟨m2, ?_, h2⟩
  unfold splitRowsStep
  rw [h.cols, e1]
  simp only [Res.ok_bind]
  rw [e2]
  simp

/-- Pairwise relation between two lists (same length, related entries). -/
inductive Rel2 {β γ : Type} (R : β → γ → Prop) : List β → List γ → Prop
  | nil : Rel2 R [] []
  | cons {b c bs cs} (h : R b c) (hs : Rel2 R bs cs) : Rel2 R (b :: bs) (c :: cs)

theorem Rel2.length_eq {β γ : Type} {R : β → γ → Prop} {l : List β} {k : List γ} (h : Rel2 R l k) : l.length = k.length := by
  induction h with
  | nil => rfl
  | cons _ _ ih => simp [ih]

theorem Rel2.mem_zip {β γ : Type} {R : β → γ → Prop} {l : List β} {k : List γ} (h : Rel2 R l k) :
    ∀ p ∈ l.zip k, R p.1 p.2 := by
  induction h with
  | nil => simp
  | cons h _ ih =>
    intro p hp
    rw [List.zip_cons_cons] at hp
    rcases List.mem_cons.1 hp with rfl | hp
    · exact h
    · exact ih p hp

theorem rel2_of_pairs {β γ : Type} {R : β → γ → Prop} {z : List (β × γ)} (h : ∀ p ∈ z, R p.1 p.2) :
    Rel2 R (z.map Prod.fst) (z.map Prod.snd) := by
  induction z with
  | nil => exact .nil
  | cons p z ih => exact .cons (h p (by simp)) (ih (fun q hq => h q (by simp [hq])))

theorem splitCols_ok [Zero α] {m : Mat α} {r : Int} {f : Int → Int → α} (hr : 1 ≤ r) :
    ∀ (blocks : List (List Int)) (pre post : List Int) (acc : List (Mat α)),
    ColsAre m r f (pre ++ (blocks.flatten ++ post)) → (∀ b ∈ blocks, b ≠ []) →
    ∃ l k, (blocks.map (fun b => (b.length : Int))).foldlM (splitColsStep m) (acc, (pre.length : Int)) = .ok (acc ++ l, k) ∧
      Rel2 (fun n b => ColsAre n r f b) l blocks := by
  intro blocks
  induction blocks with
  | nil => intro pre post acc _ _; exact ⟨[], pre.length, by simp, .nil⟩
  | cons b bs ih =>
    intro pre post acc h hne
    rw [List.flatten_cons, List.append_assoc] at h
    obtain ⟨n, e, hn⟩ := splitColsStep_ok h hr (hne b (by simp)) acc
    obtain ⟨l, k, e2, hl⟩ := ih (pre ++ b) post (acc ++ [n]) (by rw [List.append_assoc]; exact h)
      (fun x hx => hne x (by simp [hx]))
    refine ⟨n :: l, k, ?_, .cons hn hl⟩
    rw [List.map_cons, List.foldlM_cons, e]
    simp only [Res.ok_bind]
    rw [e2]
    simp

theorem splitRows_ok [Zero α] {m : Mat α} {c : Int} {f : Int → Int → α} (hc : 1 ≤ c) :
    ∀ (blocks : List (List Int)) (pre post : List Int) (acc : List (Mat α)),
    RowsAre m c f (pre ++ (blocks.flatten ++ post)) → (∀ b ∈ blocks, b ≠ []) →
    ∃ l k, (blocks.map (fun b => (b.length : Int))).foldlM (splitRowsStep m) (acc, (pre.length : Int)) = .ok (acc ++ l, k) ∧
      Rel2 (fun n b => RowsAre n c f b) l blocks := by
  intro blocks
  induction blocks with
  | nil => intro pre post acc _ _; exact ⟨[], pre.length, by simp, .nil⟩
  | cons b bs ih =>
    intro pre post acc h hne
    rw [List.flatten_cons, List.append_assoc] at h
    obtain ⟨n, e, hn⟩ := splitRowsStep_ok h hc (hne b (by simp)) acc
    obtain ⟨l, k, e2, hl⟩ := ih (pre ++ b) post (acc ++ [n]) (by rw [List.append_assoc]; exact h)
      (fun x hx => hne x (by simp [hx]))
    refine ⟨n :: l, k, ?_, .cons hn hl⟩
    rw [List.map_cons, List.foldlM_cons, e]
    simp only [Res.ok_bind]
    rw [e2]
    simp

/-! ### merging -/

theorem mergeColsStep_ok [Zero α] {R C p w : Int} {full m : Mat α} {f : Int → Int → α}
    (hfull : IsMat full R C 1 (fun i j _ => if j ≤ p then f i j else 0))
    (hm : IsMat m R w 1 (fun i j _ => f i (p + j))) (hR : 1 ≤ R) (hp : 0 ≤ p) (hw : 0 ≤ w) (hC : p + w ≤ C) :
    ∃ full', mergeColsStep R C (full, p) m = .ok (full', p + w) ∧
      IsMat full' R C 1 (fun i j _ => if j ≤ p + w then f i j else 0) := by
  have loop := forRange_inv (lo := 1) (hi := R)
    (body := fun (st : Mat α × Int) i =>
      if st.2 > R then (.throw .runtimeError : Res (Mat α × Int))
      else do
        let full ← forRange 1 m.cols st.1 fun full j => do
          let v ← m.getElem2 i j
          full.setElem2 v st.2 (j + p)
        .ok (full, st.2 + 1))
    (fun t st => st.2 = t ∧ IsMat st.1 R C 1 (fun i j _ => if j ≤ p ∨ (i < t ∧ j ≤ p + w) then f i j else 0))
    (by omega)
    (by
      rintro t ⟨fl, row⟩ h1 h2 ⟨rfl, hfl⟩
      simp only at h1 h2 hfl ⊢
      rw [if_neg (by omega)]
      obtain ⟨fl', e, hfl'⟩ := IsMat.fill1 (lo := 1) (hi := w)
        (fun (full : Mat α) j => do let v ← m.getElem2 row j; full.setElem2 v row (j + p))
        (fun _ => row) (fun j => j + p) (fun _ => 1)
        (fun i j _ => if j ≤ p ∨ (i < row + 1 ∧ j ≤ p + w) then f i j else 0)
        (fun x a1 a2 mm ff hh => by
          rw [hm.get2 (by omega) h1 h2 a1 a2, if_pos (by omega)]
          have := hh.set2 (by omega) h1 h2 (by omega : 1 ≤ x + p) (by omega) (f row (p + x))
          rw [Int.add_comm p x] at this ⊢
          exact this) hfl
        (fun i j k hi hv => by
          have hik : k = 1 := by unfold InR at hi; omega
          by_cases c1 : j ≤ p
          · rw [if_pos (Or.inl c1), if_pos (Or.inl c1)]
          · by_cases c2 : i < row ∧ j ≤ p + w
            · rw [if_pos (Or.inr c2), if_pos (Or.inr (by omega))]
            · rw [if_neg (by omega), if_neg]
              rintro (c | c)
              · exact c1 c
              · exact hv (j - p) (by omega) (by omega) ⟨by omega, by omega, hik⟩)
      refine ⟨(fl', row + 1), ?_, rfl, hfl'⟩
      rw [hm.cols, e]
      rfl)
    (s := (full, 1)) ⟨rfl, hfull.congr (fun i j k hi => by
      by_cases c1 : j ≤ p
      · rw [if_pos c1, if_pos (Or.inl c1)]
      · rw [if_neg c1, if_neg]
        rintro (c | c)
        · exact c1 c
        · unfold InR at hi; omega)⟩
  obtain ⟨⟨fl, row⟩, e, rfl, hfl⟩ := loop
  refine ⟨fl, ?_, hfl.congr (fun i j k hi => ?_)⟩
  · unfold mergeColsStep
    rw [if_neg (by simp only; omega), hm.rows]
    simp only
    rw [e]
    simp only [Res.ok_bind, hm.cols]
  · unfold InR at hi
    by_cases c1 : j ≤ p + w
    · rw [if_pos (by omega), if_pos c1]
    · rw [if_neg (by omega), if_neg c1]

theorem mergeRowsStep_ok [Zero α] {R C p w : Int} {full m : Mat α} {f : Int → Int → α}
    (hfull : IsMat full R C 1 (fun i j _ => if i ≤ p then f i j else 0))
    (hm : IsMat m w C 1 (fun i j _ => f (p + i) j)) (hC : 1 ≤ C) (hp : 0 ≤ p) (hw : 0 ≤ w) (hR : p + w ≤ R) :
    ∃ full', mergeRowsStep R C (full, p) m = .ok (full', p + w) ∧
      IsMat full' R C 1 (fun i j _ => if i ≤ p + w then f i j else 0) := by
  have loop := forRange_inv (lo := 1) (hi := C)
    (body := fun (st : Mat α × Int) j =>
      if st.2 > C then (.throw .runtimeError : Res (Mat α × Int))
      else do
        let full ← forRange 1 m.rows st.1 fun full i => do
          let v ← m.getElem2 i j
          full.setElem2 v (p + i) st.2
        .ok (full, st.2 + 1))
    (fun t st => st.2 = t ∧ IsMat st.1 R C 1 (fun i j _ => if i ≤ p ∨ (j < t ∧ i ≤ p + w) then f i j else 0))
    (by omega)
    (by
      rintro t ⟨fl, col⟩ h1 h2 ⟨rfl, hfl⟩
      simp only at h1 h2 hfl ⊢
      rw [if_neg (by omega)]
      obtain ⟨fl', e, hfl'⟩ := IsMat.fill1 (lo := 1) (hi := w)
        (fun (full : Mat α) i => do let v ← m.getElem2 i col; full.setElem2 v (p + i) col)
        (fun i => p + i) (fun _ => col) (fun _ => 1)
        (fun i j _ => if i ≤ p ∨ (j < col + 1 ∧ i ≤ p + w) then f i j else 0)
        (fun x a1 a2 mm ff hh => by
          rw [hm.get2 (by omega) a1 a2 h1 h2, if_pos (by omega)]
          exact hh.set2 (by omega) (by omega : 1 ≤ p + x) (by omega) h1 h2 (f (p + x) col)) hfl
        (fun i j k hi hv => by
          have hik : k = 1 := by unfold InR at hi; omega
          by_cases c1 : i ≤ p
          · rw [if_pos (Or.inl c1), if_pos (Or.inl c1)]
          · by_cases c2 : j < col ∧ i ≤ p + w
            · rw [if_pos (Or.inr c2), if_pos (Or.inr (by omega))]
            · rw [if_neg (by omega), if_neg]
              rintro (c | c)
              · exact c1 c
              · exact hv (i - p) (by omega) (by omega) ⟨by omega, by omega, hik⟩)
      refine ⟨(fl', col + 1), ?_, rfl, hfl'⟩
      rw [hm.rows, e]
      rfl)
    (s := (full, 1)) ⟨rfl, hfull.congr (fun i j k hi => by
      by_cases c1 : i ≤ p
      · rw [if_pos c1, if_pos (Or.inl c1)]
      · rw [if_neg c1, if_neg]
        rintro (c | c)
        · exact c1 c
        · unfold InR at hi; omega)⟩
  obtain ⟨⟨fl, col⟩, e, rfl, hfl⟩ := loop
  refine ⟨fl, ?_, hfl.congr (fun i j k hi => ?_)⟩
  · unfold mergeRowsStep
    rw [if_neg (by simp only; omega), hm.cols]
    simp only
    rw [e]
    simp only [Res.ok_bind, hm.rows]
  · unfold InR at hi
    by_cases c1 : i ≤ p + w
    · rw [if_pos (by omega), if_pos c1]
    · rw [if_neg (by omega), if_neg c1]

theorem mergeCols_ok [Zero α] {R C : Int} {f : Int → Int → α} (hR : 1 ≤ R) (ix : List Int) :
    ∀ (l : List (Mat α)) (blocks : List (List Int)) (pre : List Int) (full : Mat α),
    Rel2 (fun n b => ColsAre n R f b) l blocks → ix = pre ++ blocks.flatten → (ix.length : Int) ≤ C →
    IsMat full R C 1 (fun i j _ => if j ≤ pre.length then f i (ix.getD (j - 1).toNat 0) else 0) →
    ∃ full', l.foldlM (mergeColsStep R C) (full, (pre.length : Int)) = .ok (full', (ix.length : Int)) ∧
      IsMat full' R C 1 (fun i j _ => if j ≤ ix.length then f i (ix.getD (j - 1).toNat 0) else 0) := by
  intro l
  induction l with
  | nil =>
    intro blocks pre full hl hix hC hfull
    cases hl
    simp at hix
    subst hix
    exact ⟨full, rfl, hfull⟩
  | cons m l ih =>
    intro blocks pre full hl hix hC hfull
    cases hl with
    | cons hm hl =>
      rename_i b bs
      rw [List.flatten_cons] at hix
      have hlen : (ix.length : Int) = pre.length + b.length + bs.flatten.length := by
        rw [hix]; simp only [List.length_append]; omega
      have hm' : IsMat m R b.length 1 (fun i j _ => f i (ix.getD (pre.length + j - 1).toNat 0)) := by
        refine hm.congr (fun i j k hi => ?_)
        unfold InR at hi
        have : ((pre.length : Int) + j - 1).toNat = pre.length + (j - 1).toNat := by omega
        rw [this, hix, getD_mid (by omega)]
      obtain ⟨full1, e1, h1⟩ := mergeColsStep_ok (p := pre.length) (w := b.length)
        (f := fun i j => f i (ix.getD (j - 1).toNat 0)) hfull hm' hR (by omega) (by omega) (by omega)
      have hpl : (pre.length : Int) + b.length = (pre ++ b).length := by simp
      obtain ⟨full2, e2, h2⟩ := ih bs (pre ++ b) full1 hl (by rw [hix, List.append_assoc]) hC
        (h1.congr (fun i j k hi => by rw [hpl]))
      refine ⟨full2, ?_, h2⟩
      rw [List.foldlM_cons, e1]
      simp only [Res.ok_bind, hpl]
      exact e2

theorem mergeRows_ok [Zero α] {R C : Int} {f : Int → Int → α} (hC : 1 ≤ C) (ix : List Int) :
    ∀ (l : List (Mat α)) (blocks : List (List Int)) (pre : List Int) (full : Mat α),
    Rel2 (fun n b => RowsAre n C f b) l blocks → ix = pre ++ blocks.flatten → (ix.length : Int) ≤ R →
    IsMat full R C 1 (fun i j _ => if i ≤ pre.length then f (ix.getD (i - 1).toNat 0) j else 0) →
    ∃ full', l.foldlM (mergeRowsStep R C) (full, (pre.length : Int)) = .ok (full', (ix.length : Int)) ∧
      IsMat full' R C 1 (fun i j _ => if i ≤ ix.length then f (ix.getD (i - 1).toNat 0) j else 0) := by
  intro l
  induction l with
  | nil =>
    intro blocks pre full hl hix hC hfull
    cases hl
    simp at hix
    subst hix
    exact ⟨full, rfl, hfull⟩
  | cons m l ih =>
    intro blocks pre full hl hix hR hfull
    cases hl with
    | cons hm hl =>
      rename_i b bs
      rw [List.flatten_cons] at hix
      have hlen : (ix.length : Int) = pre.length + b.length + bs.flatten.length := by
        rw [hix]; simp only [List.length_append]; omega
      have hm' : IsMat m b.length C 1 (fun i j _ => f (ix.getD (pre.length + i - 1).toNat 0) j) := by
        refine hm.congr (fun i j k hi => ?_)
        unfold InR at hi
        have : ((pre.length : Int) + i - 1).toNat = pre.length + (i - 1).toNat := by omega
        rw [this, hix, getD_mid (by omega)]
      obtain ⟨full1, e1, h1⟩ := mergeRowsStep_ok (p := pre.length) (w := b.length)
        (f := fun i j => f (ix.getD (i - 1).toNat 0) j) hfull hm' hC (by omega) (by omega) (by omega)
      have hpl : (pre.length : Int) + b.length = (pre ++ b).length := by simp
      obtain ⟨full2, e2, h2⟩ := ih bs (pre ++ b) full1 hl (by rw [hix, List.append_assoc]) hR
        (h1.congr (fun i j k hi => by rw [hpl]))
      refine ⟨full2, ?_, h2⟩
      rw [List.foldlM_cons, e1]
      simp only [Res.ok_bind, hpl]
      exact e2

/-- Merging blocks of columns of `f` gives the matrix with all these columns, in order. -/
theorem mergeList_cols [Zero α] {R C : Int} {f : Int → Int → α} (hR : 1 ≤ R) (hC : 1 ≤ C) {l : List (Mat α)}
    {blocks : List (List Int)} (hl : Rel2 (fun n b => ColsAre n R f b) l blocks) (hlen : (blocks.flatten.length : Int) = C) :
    ∃ m, mergeListOfMatrices l R C "Columns".toList = .ok m ∧ ColsAre m R f blocks.flatten := by
  obtain ⟨m0, e0, h0⟩ := mk2_isMat (α := α) hR hC
  obtain ⟨m, e, h⟩ := mergeCols_ok (f := f) hR blocks.flatten l blocks [] m0 hl rfl (by omega)
    (h0.congr (fun i j k hi => by rw [if_neg]; unfold InR at hi; simp; omega))
  refine ⟨m, ?_, ?_⟩
  · unfold mergeListOfMatrices
    rw [e0]
    simp only [Res.ok_bind, if_true]
    simp only [List.length_nil, Int.natCast_zero] at e
    rw [e]
    rfl
  · unfold ColsAre
    rw [hlen]
    exact h.congr (fun i j k hi => by unfold InR at hi; rw [if_pos (by omega)])

theorem mergeList_rows [Zero α] {R C : Int} {f : Int → Int → α} (hR : 1 ≤ R) (hC : 1 ≤ C) {l : List (Mat α)}
    {blocks : List (List Int)} (hl : Rel2 (fun n b => RowsAre n C f b) l blocks) (hlen : (blocks.flatten.length : Int) = R) :
    ∃ m, mergeListOfMatrices l R C "Rows".toList = .ok m ∧ RowsAre m C f blocks.flatten := by
  obtain ⟨m0, e0, h0⟩ := mk2_isMat (α := α) hR hC
  obtain ⟨m, e, h⟩ := mergeRows_ok (f := f) hC blocks.flatten l blocks [] m0 hl rfl (by omega)
    (h0.congr (fun i j k hi => by rw [if_neg]; unfold InR at hi; simp; omega))
  refine ⟨m, ?_, ?_⟩
  · unfold mergeListOfMatrices
    rw [e0]
    simp only [Res.ok_bind, if_true]
    rw [if_neg (by decide)]
    simp only [List.length_nil, Int.natCast_zero] at e
    rw [e]
    rfl
  · unfold RowsAre
    rw [hlen]
    exact h.congr (fun i j k hi => by unfold InR at hi; rw [if_pos (by omega)])

theorem splitList_cols [Zero α] {m : Mat α} {r : Int} {f : Int → Int → α} (hr : 1 ≤ r) {blocks : List (List Int)}
    (h : ColsAre m r f blocks.flatten) (hne : ∀ b ∈ blocks, b ≠ []) :
    ∃ l, splitMatrixIntoList (blocks.map (fun b => (b.length : Int))) m "Columns".toList = .ok l ∧
      Rel2 (fun n b => ColsAre n r f b) l blocks := by
  obtain ⟨l, k, e, hl⟩ := splitCols_ok hr blocks [] [] [] (by simpa using h) hne
  refine ⟨l, ?_, hl⟩
  unfold splitMatrixIntoList
  rw [if_pos rfl]
  simp only [List.length_nil, Int.natCast_zero] at e
  rw [e]
  simp

theorem splitList_rows [Zero α] {m : Mat α} {c : Int} {f : Int → Int → α} (hc : 1 ≤ c) {blocks : List (List Int)}
    (h : RowsAre m c f blocks.flatten) (hne : ∀ b ∈ blocks, b ≠ []) :
    ∃ l, splitMatrixIntoList (blocks.map (fun b => (b.length : Int))) m "Rows".toList = .ok l ∧
      Rel2 (fun n b => RowsAre n c f b) l blocks := by
  obtain ⟨l, k, e, hl⟩ := splitRows_ok hc blocks [] [] [] (by simpa using h) hne
  refine ⟨l, ?_, hl⟩
  unfold splitMatrixIntoList
  rw [if_neg (by decide), if_pos rfl]
  simp only [List.length_nil, Int.natCast_zero] at e
  rw [e]
  simp

end Verif.QC
