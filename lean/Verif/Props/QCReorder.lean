import Verif.Props.QCBlocks
import Verif.Props.MatrixB
/-
Property C31: unscrambling undoes any reordering of the dimer's atoms.
-/
namespace Verif.QC
open Verif.Mat
variable {α : Type}

theorem getElem_eq_of_mem {order : List Int} {n : Nat} (hp : order.Perm (irange 1 n)) {k : Nat} {a : Int} (h : order[k]? = some a) :
    1 ≤ a ∧ a ≤ n := mem_irange.1 (hp.mem_iff.1 (List.mem_of_getElem? h))

theorem atomCols_length' {basis : List Int} (hb : ∀ b ∈ basis, 1 ≤ b) {a : Int} (h : 1 ≤ a ∧ a ≤ basis.length) :
    ((atomCols basis a).length : Int) = basis.getD (a - 1).toNat 0 := by
  have h1 : (a - 1).toNat < basis.length := by omega
  have := atomCols_length hb h1
  have e : ((a - 1).toNat : Int) + 1 = a := by omega
  rw [e] at this
  rw [this, List.getD_eq_getElem?_getD, List.getElem?_eq_getElem h1]; rfl

theorem colsOf_length {basis : List Int} (hb : ∀ b ∈ basis, 1 ≤ b) (L : List Int) (h : ∀ a ∈ L, 1 ≤ a ∧ a ≤ basis.length) :
    ((colsOf basis L).length : Int) = (reorderedBasis basis L).sum := by
  induction L with
  | nil => rfl
  | cons a L ih =>
    have h1 := atomCols_length' hb (h a (by simp))
    have h2 := ih (fun x hx => h x (by simp [hx]))
    simp only [colsOf, List.flatMap_cons, List.length_append, reorderedBasis, List.map_cons, List.sum_cons] at *
    omega

theorem reorderedBasis_pos {basis order : List Int} (hb : ∀ b ∈ basis, 1 ≤ b) (hp : order.Perm (irange 1 basis.length)) :
    ∀ b ∈ reorderedBasis basis order, 1 ≤ b := by
  intro b h
  obtain ⟨a, ha, rfl⟩ := List.mem_map.1 h
  have := mem_irange.1 (hp.mem_iff.1 ha)
  have h1 : (a - 1).toNat < basis.length := by omega
  rw [List.getD_eq_getElem?_getD, List.getElem?_eq_getElem h1]
  exact hb _ (List.getElem_mem h1)

theorem reorderedBasis_length (basis order : List Int) : (reorderedBasis basis order).length = order.length := by
  simp [reorderedBasis]

theorem reorderedBasis_sum {basis order : List Int} (hb : ∀ b ∈ basis, 1 ≤ b) (hp : order.Perm (irange 1 basis.length)) :
    (reorderedBasis basis order).sum = basis.sum := by
  rw [← colsOf_length hb order (fun a ha => mem_irange.1 (hp.mem_iff.1 ha)), (colsOf_perm hb hp).length_eq]
  exact irange_length_of_nonneg (sum_nonneg hb)

/-- The columns of the atom at position `k` of the reordered dimer are the columns of that atom. -/
theorem atomCols_reordered {basis order : List Int} (hb : ∀ b ∈ basis, 1 ≤ b) (hp : order.Perm (irange 1 basis.length))
    {k : Nat} {a : Int} (h : order[k]? = some a) :
    (atomCols (reorderedBasis basis order) ((k : Int) + 1)).map (fun j => (colsOf basis order).getD (j - 1).toNat 0)
      = atomCols basis a := by
  have hk := (List.getElem?_eq_some_iff.1 h).1
  have ha := getElem_eq_of_mem hp h
  have hka : order[k] = a := (List.getElem?_eq_some_iff.1 h).2
  have hmem : ∀ x ∈ order, 1 ≤ x ∧ x ≤ basis.length := fun x hx => mem_irange.1 (hp.mem_iff.1 hx)
  have hsplit : order = order.take k ++ (a :: order.drop (k + 1)) := by
    conv => lhs; rw [← List.take_append_drop k order]
    rw [List.drop_eq_getElem_cons hk, hka]
  have hcols : colsOf basis order = colsOf basis (order.take k) ++ (atomCols basis a ++ colsOf basis (order.drop (k + 1))) := by
    conv => lhs; rw [hsplit]
    simp [colsOf, List.flatMap_append, List.flatMap_cons]
  have hpre : ((colsOf basis (order.take k)).length : Int) = ((reorderedBasis basis order).take k).sum := by
    rw [colsOf_length hb _ (fun x hx => hmem x (List.mem_of_mem_take hx))]
    simp [reorderedBasis, List.map_take]
  have hlen := atomCols_length' hb ha
  have hlen2 := atomCols_length (reorderedBasis_pos hb hp) (n := k) (by rw [reorderedBasis_length]; exact hk)
  have e : (reorderedBasis basis order)[k]'(by rw [reorderedBasis_length]; exact hk) = basis.getD (a - 1).toNat 0 := by
    simp [reorderedBasis, hka]
  rw [e] at hlen2
  apply List.ext_getElem
  · simp; omega
  · intro n h1 h2
    rw [List.getElem_map]
    have hn : (atomCols (reorderedBasis basis order) ((k : Int) + 1))[n]'(by simpa using h1)
        = (colsOf basis (order.take k)).length + n + 1 := by
      simp only [atomCols, getElem_irange]
      have : ((k : Int) + 1 - 1).toNat = k := by omega
      rw [this, ← hpre]; omega
    rw [hn]
    have e2 : (((colsOf basis (order.take k)).length : Int) + n + 1 - 1).toNat = (colsOf basis (order.take k)).length + n := by omega
    rw [e2, hcols, getD_mid h2, List.getD_eq_getElem?_getD, List.getElem?_eq_getElem h2]
    rfl

theorem Undoes.injective {n : Nat} {order inv : List Int} (h : Undoes n order inv) : InjectiveMatch n inv := by
  obtain ⟨h1, h2, h3⟩ := h
  have hol : order.length = n := by rw [h1.length_eq]; simp
  constructor
  · rw [List.nodup_iff_pairwise_ne, List.pairwise_iff_getElem]
    intro i j hi hj hij e0
    have e : inv[i]? = inv[j]? := by rw [List.getElem?_eq_getElem hi, List.getElem?_eq_getElem hj, e0]
    have e1 := h3 i inv[i] (List.getElem?_eq_getElem hi)
    have e2 := h3 j inv[i] (by rw [← e]; exact List.getElem?_eq_getElem hi)
    have := e1.2.symm.trans e2.2
    simp at this
    omega
  · intro t ht
    obtain ⟨i, hi⟩ := List.mem_iff_getElem?.1 ht
    have e := h3 i t hi
    have := (List.getElem?_eq_some_iff.1 e.2).1
    omega

/-- Reading the reordered columns in the order `inv` gives back all columns in order. -/
theorem colsOf_undo {basis order inv : List Int} (hb : ∀ b ∈ basis, 1 ≤ b) (h : Undoes basis.length order inv) :
    (colsOf (reorderedBasis basis order) inv).map (fun j => (colsOf basis order).getD (j - 1).toNat 0) = irange 1 basis.sum := by
  rw [← colsOf_all hb]
  unfold colsOf
  rw [List.map_flatMap]
  have hinv : ∀ (L : List Int) (i0 : Nat), (∀ (i : Nat) (t : Int), L[i]? = some t → inv[i0 + i]? = some t) →
      L.flatMap (fun t => (atomCols (reorderedBasis basis order) t).map (fun j => (colsOf basis order).getD (j - 1).toNat 0))
        = (irange (i0 + 1) (i0 + L.length)).flatMap (atomCols basis) := by
    intro L
    induction L with
    | nil => intro i0 _; rw [irange_empty (by simp; omega)]; rfl
    | cons t L ih =>
      intro i0 hL
      have ht := hL 0 t rfl
      obtain ⟨t1, t2⟩ := h.2.2 _ _ ht
      have e1 : (((t - 1).toNat : Nat) : Int) + 1 = t := by omega
      have hc := atomCols_reordered hb h.1 t2
      rw [e1] at hc
      rw [List.flatMap_cons, irange_cons (by simp; omega), List.flatMap_cons, hc]
      have := ih (i0 + 1) (fun i t hi => by
        have := hL (i + 1) t (by simpa using hi)
        rw [← this]; congr 1; omega)
      rw [this]
      congr 2
      simp only [List.length_cons]
      congr 1 <;> omega
  have := hinv inv 0 (fun i t hi => by simpa using hi)
  rw [h.2.1] at this
  simpa [colsOf] using this

private theorem getD_map_getD {ix jx : List Int} {n : Nat} (hn : n < ix.length) (x : Int)
    (h : (ix.map (fun j => jx.getD (j - 1).toNat 0))[n]? = some x) : jx.getD (ix.getD n 0 - 1).toNat 0 = x := by
  rw [List.getElem?_map, List.getElem?_eq_getElem hn] at h
  simp only [Option.map_some, Option.some.injEq] at h
  rw [List.getD_eq_getElem?_getD (l := ix), List.getElem?_eq_getElem hn]
  exact h

/-- The columns of `D` are those of `M`, the atom blocks being listed in the order `order`. -/
def ColumnsReordered (basis order : List Int) (M D : Mat α) : Prop :=
  WF D ∧ D.shel = 1 ∧ D.rows = M.rows ∧ D.cols = M.cols ∧
  ∀ i (q : Nat) c, (colsOf basis order)[q]? = some c → D.getElem2 i (q + 1) = M.getElem2 i c

/-- Rows and columns of `D` are those of `M`, the atom blocks being listed in the order `order`. -/
def BothReordered (basis order : List Int) (M D : Mat α) : Prop :=
  WF D ∧ D.shel = 1 ∧ D.rows = M.rows ∧ D.cols = M.cols ∧
  ∀ (p q : Nat) r c, (colsOf basis order)[p]? = some r → (colsOf basis order)[q]? = some c →
    D.getElem2 (p + 1) (q + 1) = M.getElem2 r c

section
variable {basis order inv : List Int}

private theorem reordered_isMat (hb : ∀ b ∈ basis, 1 ≤ b) (hne : basis ≠ []) (h : order.Perm (irange 1 basis.length))
    {M D : Mat α} {f : Int → Int → Int → α} (hf : IsMat M M.rows basis.sum 1 f) (hD : ColumnsReordered basis order M D)
    : ColsAre D M.rows (fun i j => f i ((colsOf basis order).getD (j - 1).toNat 0) 1) (irange 1 basis.sum) := by
  obtain ⟨d1, d2, d3, d4, d5⟩ := hD
  have hsum := sum_pos hb hne
  obtain ⟨g, hg⟩ := d1.exists_isMat
  rw [d2, d3, d4, hf.cols] at hg
  have hperm := colsOf_perm hb h
  have hlen : ((colsOf basis order).length : Int) = basis.sum := by rw [hperm.length_eq]; exact irange_length_of_nonneg (by omega)
  have : IsMat D M.rows basis.sum 1 (fun i j _ => f i ((colsOf basis order).getD (j - 1).toNat 0) 1) := by
    refine hg.congr ?_
    rintro i j k ⟨i1, i2, j1, j2, k1, k2⟩
    obtain ⟨c, hc⟩ : ∃ c, (colsOf basis order)[(j - 1).toNat]? = some c := ⟨_, List.getElem?_eq_getElem (by omega)⟩
    have hcm := mem_irange.1 (hperm.mem_iff.1 (List.mem_of_getElem? hc))
    have := d5 i _ c hc
    have ej : (((j - 1).toNat : Nat) : Int) + 1 = j := by omega
    rw [ej, hg.get2 (by omega) i1 i2 j1 j2, hf.get2 (by omega) i1 i2 hcm.1 hcm.2] at this
    have hk : k = 1 := by omega
    rw [hk, List.getD_eq_getElem?_getD, hc]
    exact Res.ok.inj this
  exact isMat_colsAre (f := fun i j _ => f i ((colsOf basis order).getD (j - 1).toNat 0) 1) this (by omega)

private theorem both_isMat (hb : ∀ b ∈ basis, 1 ≤ b) (hne : basis ≠ []) (h : order.Perm (irange 1 basis.length))
    {M D : Mat α} {f : Int → Int → Int → α} (hf : IsMat M basis.sum basis.sum 1 f) (hD : BothReordered basis order M D) :
    ColsAre D basis.sum (fun i j => f ((colsOf basis order).getD (i - 1).toNat 0) ((colsOf basis order).getD (j - 1).toNat 0) 1)
      (irange 1 basis.sum) := by
  obtain ⟨d1, d2, d3, d4, d5⟩ := hD
  have hsum := sum_pos hb hne
  obtain ⟨g, hg⟩ := d1.exists_isMat
  rw [d2, d3, d4, hf.cols, hf.rows] at hg
  have hperm := colsOf_perm hb h
  have hlen : ((colsOf basis order).length : Int) = basis.sum := by rw [hperm.length_eq]; exact irange_length_of_nonneg (by omega)
  have : IsMat D basis.sum basis.sum 1
      (fun i j _ => f ((colsOf basis order).getD (i - 1).toNat 0) ((colsOf basis order).getD (j - 1).toNat 0) 1) := by
    refine hg.congr ?_
    rintro i j k ⟨i1, i2, j1, j2, k1, k2⟩
    obtain ⟨c, hc⟩ : ∃ c, (colsOf basis order)[(j - 1).toNat]? = some c := ⟨_, List.getElem?_eq_getElem (by omega)⟩
    obtain ⟨r, hr⟩ : ∃ r, (colsOf basis order)[(i - 1).toNat]? = some r := ⟨_, List.getElem?_eq_getElem (by omega)⟩
    have hcm := mem_irange.1 (hperm.mem_iff.1 (List.mem_of_getElem? hc))
    have hrm := mem_irange.1 (hperm.mem_iff.1 (List.mem_of_getElem? hr))
    have := d5 _ _ r c hr hc
    have ej : (((j - 1).toNat : Nat) : Int) + 1 = j := by omega
    have ei : (((i - 1).toNat : Nat) : Int) + 1 = i := by omega
    rw [ei, ej, hg.get2 (by omega) i1 i2 j1 j2, hf.get2 (by omega) hrm.1 hrm.2 hcm.1 hcm.2] at this
    have hk : k = 1 := by omega
    rw [hk]
    simp only [List.getD_eq_getElem?_getD, hc, hr, Option.getD_some]
    exact Res.ok.inj this
  exact isMat_colsAre (f := fun i j _ => f ((colsOf basis order).getD (i - 1).toNat 0) ((colsOf basis order).getD (j - 1).toNat 0) 1) this (by omega)

private theorem undo_at (hb : ∀ b ∈ basis, 1 ≤ b) (h : Undoes basis.length order inv) {y : List Int}
    (hy : y.Perm (irange 1 (reorderedBasis basis order).length)) (hpre : inv <+: y) {j : Int} (h1 : 1 ≤ j) (h2 : j ≤ basis.sum) :
    (colsOf basis order).getD ((colsOf (reorderedBasis basis order) y).getD (j - 1).toNat 0 - 1).toNat 0 = j := by
  have hye : y = inv := by
    have h3 := hy.length_eq
    rw [reorderedBasis_length, length_irange] at h3
    have h4 : order.length = basis.length := by rw [h.1.length_eq]; simp
    exact (hpre.eq_of_length (by rw [h.2.1]; omega)).symm
  subst hye
  have hu := colsOf_undo hb h
  have hl : (colsOf (reorderedBasis basis order) y).length = (irange 1 basis.sum).length := by rw [← hu]; simp
  apply getD_map_getD
  · rw [hl]; simp; omega
  · rw [hu, List.getElem?_eq_getElem (by simp; omega), getElem_irange]; congr 1; omega

private theorem undo_cols (hb : ∀ b ∈ basis, 1 ≤ b) (hne : basis ≠ []) (h : Undoes basis.length order inv) {y : List Int}
    (hy : y.Perm (irange 1 (reorderedBasis basis order).length)) (hpre : inv <+: y) {M m' : Mat α} {r : Int} {f : Int → Int → Int → α}
    (hf : IsMat M r basis.sum 1 f)
    (hm' : ColsAre m' r (fun i j => f i ((colsOf basis order).getD (j - 1).toNat 0) 1) (colsOf (reorderedBasis basis order) y)) :
    m' = M := by
  have hsum := sum_pos hb hne
  have hperm := colsOf_perm (reorderedBasis_pos hb h.1) hy
  have hlen : ((colsOf (reorderedBasis basis order) y).length : Int) = basis.sum := by
    rw [hperm.length_eq, reorderedBasis_sum hb h.1]; exact irange_length_of_nonneg (by omega)
  unfold ColsAre at hm'
  rw [hlen] at hm'
  refine hm'.ext' hf ?_
  rintro i j k ⟨i1, i2, j1, j2, k1, k2⟩
  have hk : k = 1 := by omega
  show f i ((colsOf basis order).getD ((colsOf (reorderedBasis basis order) y).getD (j - 1).toNat 0 - 1).toNat 0) 1 = _
  rw [hk, undo_at hb h hy hpre j1 j2]

/-- C31 (coefficients): `D` lists the atom blocks of the aligned `M` in any order; unscrambling with the match that
finds the atoms returns exactly `M`. -/
theorem C31_coef [Zero α] (A B : List Int) (hb : ∀ b ∈ basis, 1 ≤ b) (hne : basis ≠ []) (h : Undoes basis.length order (A ++ B))
    {M D : Mat α} (hM : WF M) (hs : M.shel = 1) (hc : M.cols = basis.sum) (hD : ColumnsReordered basis order M D) :
    unscrambleCoef2 A B (reorderedBasis basis order) D = .ok M := by
  obtain ⟨f, hf⟩ := hM.exists_isMat
  rw [hs, hc] at hf
  have hol : order.length = basis.length := by rw [h.1.length_eq]; simp
  obtain ⟨y, hy, hpre, hC, -⟩ := unscramble2_ok (α := α) (reorderedBasis_pos hb h.1)
    (by intro e; have := reorderedBasis_length basis order; rw [e] at this; simp at this; exact hne (List.eq_nil_of_length_eq_zero (by omega)))
    (A := A) (B := B) (by rw [reorderedBasis_length, hol]; exact h.injective)
  obtain ⟨m', e, hm'⟩ := hC D M.rows _ hM.rows1 (by rw [reorderedBasis_sum hb h.1]; exact reordered_isMat hb hne h.1 hf hD)
  rw [e, undo_cols hb hne h hy hpre hf hm']

/-- C31 (coefficients, one-monomer overload). -/
theorem C31_coef_one [Zero α] (A : List Int) (hb : ∀ b ∈ basis, 1 ≤ b) (hne : basis ≠ []) (h : Undoes basis.length order A)
    {M D : Mat α} (hM : WF M) (hs : M.shel = 1) (hc : M.cols = basis.sum) (hD : ColumnsReordered basis order M D) :
    unscrambleCoef1 A (reorderedBasis basis order) D = .ok M := by
  obtain ⟨f, hf⟩ := hM.exists_isMat
  rw [hs, hc] at hf
  have hol : order.length = basis.length := by rw [h.1.length_eq]; simp
  obtain ⟨y, hy, hpre, hC, -⟩ := unscramble1_ok (α := α) (reorderedBasis_pos hb h.1)
    (by intro e; have := reorderedBasis_length basis order; rw [e] at this; simp at this; exact hne (List.eq_nil_of_length_eq_zero (by omega)))
    (A := A) (by rw [reorderedBasis_length, hol]; exact h.injective)
  obtain ⟨m', e, hm'⟩ := hC D M.rows _ hM.rows1 (by rw [reorderedBasis_sum hb h.1]; exact reordered_isMat hb hne h.1 hf hD)
  rw [e, undo_cols hb hne h hy hpre hf hm']

private theorem undo_both (hb : ∀ b ∈ basis, 1 ≤ b) (hne : basis ≠ []) (h : Undoes basis.length order inv) {y : List Int}
    (hy : y.Perm (irange 1 (reorderedBasis basis order).length)) (hpre : inv <+: y) {M m' : Mat α} {f : Int → Int → Int → α}
    (hf : IsMat M basis.sum basis.sum 1 f)
    (hm' : RowsAre m' basis.sum (fun i j => f ((colsOf basis order).getD (i - 1).toNat 0)
      ((colsOf basis order).getD ((colsOf (reorderedBasis basis order) y).getD (j - 1).toNat 0 - 1).toNat 0) 1)
      (colsOf (reorderedBasis basis order) y)) :
    m' = M := by
  have hsum := sum_pos hb hne
  have hperm := colsOf_perm (reorderedBasis_pos hb h.1) hy
  have hlen : ((colsOf (reorderedBasis basis order) y).length : Int) = basis.sum := by
    rw [hperm.length_eq, reorderedBasis_sum hb h.1]; exact irange_length_of_nonneg (by omega)
  unfold RowsAre at hm'
  rw [hlen] at hm'
  refine hm'.ext' hf ?_
  rintro i j k ⟨i1, i2, j1, j2, k1, k2⟩
  have hk : k = 1 := by omega
  show f ((colsOf basis order).getD ((colsOf (reorderedBasis basis order) y).getD (i - 1).toNat 0 - 1).toNat 0)
    ((colsOf basis order).getD ((colsOf (reorderedBasis basis order) y).getD (j - 1).toNat 0 - 1).toNat 0) 1 = _
  rw [hk, undo_at hb h hy hpre j1 j2, undo_at hb h hy hpre i1 i2]

/-- C31 (overlap). -/
theorem C31_overlap [Zero α] (A B : List Int) (hb : ∀ b ∈ basis, 1 ≤ b) (hne : basis ≠ []) (h : Undoes basis.length order (A ++ B))
    {M D : Mat α} (hM : WF M) (hs : M.shel = 1) (hc : M.cols = basis.sum) (hr : M.rows = basis.sum)
    (hD : BothReordered basis order M D) : unscrambleS2 A B (reorderedBasis basis order) D = .ok M := by
  obtain ⟨f, hf⟩ := hM.exists_isMat
  rw [hs, hc, hr] at hf
  have hsum := sum_pos hb hne
  have hol : order.length = basis.length := by rw [h.1.length_eq]; simp
  obtain ⟨y, hy, hpre, hC, hR⟩ := unscramble2_ok (α := α) (reorderedBasis_pos hb h.1)
    (by intro e; have := reorderedBasis_length basis order; rw [e] at this; simp at this; exact hne (List.eq_nil_of_length_eq_zero (by omega)))
    (A := A) (B := B) (by rw [reorderedBasis_length, hol]; exact h.injective)
  obtain ⟨m1, e1, h1⟩ := hC D basis.sum _ hsum (by rw [reorderedBasis_sum hb h.1]; exact both_isMat hb hne h.1 hf hD)
  have hlen : ((colsOf (reorderedBasis basis order) y).length : Int) = basis.sum := by
    rw [(colsOf_perm (reorderedBasis_pos hb h.1) hy).length_eq, reorderedBasis_sum hb h.1]; exact irange_length_of_nonneg (by omega)
  obtain ⟨m2, e2, h2⟩ := hR m1 basis.sum _ hsum (by rw [reorderedBasis_sum hb h.1]; exact both_sides hsum hlen h1)
  rw [unscrambleS2_eq, e1]
  simp only [Res.ok_bind]
  rw [e2, undo_both hb hne h hy hpre hf h2]

/-- C31 (overlap, one-monomer overload). -/
theorem C31_overlap_one [Zero α] (A : List Int) (hb : ∀ b ∈ basis, 1 ≤ b) (hne : basis ≠ []) (h : Undoes basis.length order A)
    {M D : Mat α} (hM : WF M) (hs : M.shel = 1) (hc : M.cols = basis.sum) (hr : M.rows = basis.sum)
    (hD : BothReordered basis order M D) : unscrambleS1 A (reorderedBasis basis order) D = .ok M := by
  obtain ⟨f, hf⟩ := hM.exists_isMat
  rw [hs, hc, hr] at hf
  have hsum := sum_pos hb hne
  have hol : order.length = basis.length := by rw [h.1.length_eq]; simp
  obtain ⟨y, hy, hpre, hC, hR⟩ := unscramble1_ok (α := α) (reorderedBasis_pos hb h.1)
    (by intro e; have := reorderedBasis_length basis order; rw [e] at this; simp at this; exact hne (List.eq_nil_of_length_eq_zero (by omega)))
    (A := A) (by rw [reorderedBasis_length, hol]; exact h.injective)
  obtain ⟨m1, e1, h1⟩ := hC D basis.sum _ hsum (by rw [reorderedBasis_sum hb h.1]; exact both_isMat hb hne h.1 hf hD)
  have hlen : ((colsOf (reorderedBasis basis order) y).length : Int) = basis.sum := by
    rw [(colsOf_perm (reorderedBasis_pos hb h.1) hy).length_eq, reorderedBasis_sum hb h.1]; exact irange_length_of_nonneg (by omega)
  obtain ⟨m2, e2, h2⟩ := hR m1 basis.sum _ hsum (by rw [reorderedBasis_sum hb h.1]; exact both_sides hsum hlen h1)
  rw [unscrambleS1_eq, e1]
  simp only [Res.ok_bind]
  rw [e2, undo_both hb hne h hy hpre hf h2]

end

/-! ### the whole complex -/

/-- C31 (the calculation, no counterpoise). The aligned dimer lists the atoms of monomer 1 and then those of monomer 2;
the dimer actually read lists atom `order[k-1]` at position `k`, with coefficients, overlap and basis counts reordered
accordingly. Atom `i` sits at position `t i` of the dimer read, where its coordinates print like those in the monomer
files; different dimer atoms print differently. Then `unscramble` gives exactly the aligned complex, whatever the
order, so `calcJ` gives the same. Nothing is assumed of the arithmetic. -/
theorem C31_transfer_complex [Zero α] [One α] [Add α] [Sub α] [Mul α] [Div α] {β : Type} [DecidableEq β] (tos : α → β)
    (basis order basis2 : List Int) (hb : ∀ b ∈ basis, 1 ≤ b) (horder : order.Perm (irange 1 basis.length))
    (T : TransferComplex α) (hcp : T.cp = false)
    (hP : WF T.coefP) (hPs : T.coefP.shel = 1) (hPc : T.coefP.cols = basis.sum)
    (hS : WF T.S) (hSs : T.S.shel = 1) (hSc : T.S.cols = basis.sum) (hSr : T.S.rows = basis.sum)
    (readP readS : Mat α) (hrP : ColumnsReordered basis order T.coefP readP) (hrS : BothReordered basis order T.S readS)
    (coord1 coord2 coordP : Mat α) (h1 : WF coord1) (h2 : WF coord2) (hp : WF coordP)
    (s1 : coord1.shel = 1) (s2 : coord2.shel = 1) (sp : coordP.shel = 1)
    (r1 : coordP.rows = coord1.rows) (r2 : coordP.rows = coord2.rows)
    (hn : coord1.cols + coord2.cols = basis.length) (hnP : coordP.cols = basis.length)
    (t : Int → Int) (ht : ∀ i : Int, 1 ≤ i → i ≤ basis.length → 1 ≤ t i ∧ order[(t i - 1).toNat]? = some i)
    (hlike1 : ∀ i, 1 ≤ i → i ≤ coord1.cols → ColPrintsLike tos coord1 coordP i (t i))
    (hlike2 : ∀ i, 1 ≤ i → i ≤ coord2.cols → ColPrintsLike tos coord2 coordP i (t (coord1.cols + i)))
    (hdiff : ∀ a b, 1 ≤ a → a ≤ coordP.cols → 1 ≤ b → b ≤ coordP.cols → ColPrintsLike tos coordP coordP a b → a = b) :
    TransferComplex.unscramble tos { T with coefP := readP, S := readS } coord1 coord2 coordP (reorderedBasis basis order) basis2
      = .ok { T with unscrambled := true } ∧
    ∀ orbtype orbnum, TransferComplex.calcJ { T with unscrambled := true } orbtype orbnum = T.calcJ orbtype orbnum := by
  refine ⟨?_, fun _ _ => rfl⟩
  have c1 := h1.cols1
  have c2 := h2.cols1
  have hol : order.length = basis.length := by rw [horder.length_eq]; simp
  have tle : ∀ i : Int, 1 ≤ i → i ≤ basis.length → t i ≤ basis.length := by
    intro i i1 i2
    have := (List.getElem?_eq_some_iff.1 (ht i i1 i2).2).1
    omega
  have m1 := (C23_matchCol_recovers tos h1 hp s1 sp r1 t
    (fun i i1 i2 => ⟨(ht i i1 (by omega)).1, by rw [hnP]; exact tle i i1 (by omega), hlike1 i i1 i2⟩) hdiff).1
  have m2 := (C23_matchCol_recovers tos h2 hp s2 sp r2 (fun i => t (coord1.cols + i))
    (fun i i1 i2 => ⟨(ht _ (by omega) (by omega)).1, by rw [hnP]; exact tle _ (by omega) (by omega), hlike2 i i1 i2⟩) hdiff).1
  have hinv : (irange 1 coord1.cols).map t ++ (irange 1 coord2.cols).map (fun i => t (coord1.cols + i))
      = (irange 1 basis.length).map t := by
    rw [← hn, ← irange_append (a := 1) (b := coord1.cols) (c := coord1.cols + coord2.cols) (by omega) (by omega), List.map_append]
    congr 1
    apply List.ext_getElem
    · simp; omega
    · intro n _ _
      simp only [List.getElem_map, getElem_irange]
      congr 1; omega
  have hu : Undoes basis.length order ((irange 1 coord1.cols).map t ++ (irange 1 coord2.cols).map (fun i => t (coord1.cols + i))) := by
    rw [hinv]
    refine ⟨horder, by simp, ?_⟩
    intro i x hx
    rw [List.getElem?_map] at hx
    have hi : i < (irange 1 (basis.length : Int)).length := by
      by_contra hcon
      rw [List.getElem?_eq_none (by omega)] at hx
      cases hx
    rw [List.getElem?_eq_getElem hi, getElem_irange] at hx
    simp only [Option.map_some, Option.some.injEq] at hx
    subst hx
    have e : (1 : Int) + i = i + 1 := by omega
    rw [e]
    refine ht (i + 1) (by omega) (by simp at hi; omega)
  have hne : basis ≠ [] := by rintro rfl; simp at hn; omega
  unfold TransferComplex.unscramble
  simp only [hcp, Bool.false_eq_true, if_false, m1, m2, Res.ok_bind]
  rw [C31_coef _ _ hb hne hu hP hPs hPc hrP]
  simp only [Res.ok_bind]
  rw [C31_overlap _ _ hb hne hu hS hSs hSc hSr hrS]
  rfl

/-- C31 (the calculation, counterpoise): all three files list the same atoms; monomer 2 and the dimer may list them in
other orders (`order2`, `orderP`). -/
theorem C31_transfer_complex_cp [Zero α] [One α] [Add α] [Sub α] [Mul α] [Div α] {β : Type} [DecidableEq β] (tos : α → β)
    (basis order2 orderP : List Int) (hb : ∀ b ∈ basis, 1 ≤ b) (ho2 : order2.Perm (irange 1 basis.length))
    (hoP : orderP.Perm (irange 1 basis.length))
    (T : TransferComplex α) (hcp : T.cp = true)
    (h2 : WF T.coef2) (h2s : T.coef2.shel = 1) (h2c : T.coef2.cols = basis.sum)
    (hP : WF T.coefP) (hPs : T.coefP.shel = 1) (hPc : T.coefP.cols = basis.sum)
    (hS : WF T.S) (hSs : T.S.shel = 1) (hSc : T.S.cols = basis.sum) (hSr : T.S.rows = basis.sum)
    (read2 readP readS : Mat α) (hr2 : ColumnsReordered basis order2 T.coef2 read2)
    (hrP : ColumnsReordered basis orderP T.coefP readP) (hrS : BothReordered basis orderP T.S readS)
    (coord1 coord2 coordP : Mat α) (k1 : WF coord1) (k2 : WF coord2) (kp : WF coordP)
    (s1 : coord1.shel = 1) (s2 : coord2.shel = 1) (sp : coordP.shel = 1)
    (r1 : coordP.rows = coord1.rows) (r2 : coord2.rows = coord1.rows)
    (n1 : coord1.cols = basis.length) (n2 : coord2.cols = basis.length) (nP : coordP.cols = basis.length)
    (t2 tP : Int → Int)
    (ht2 : ∀ i : Int, 1 ≤ i → i ≤ basis.length → 1 ≤ t2 i ∧ order2[(t2 i - 1).toNat]? = some i)
    (htP : ∀ i : Int, 1 ≤ i → i ≤ basis.length → 1 ≤ tP i ∧ orderP[(tP i - 1).toNat]? = some i)
    (hlike2 : ∀ i, 1 ≤ i → i ≤ coord1.cols → ColPrintsLike tos coord1 coord2 i (t2 i))
    (hlikeP : ∀ i, 1 ≤ i → i ≤ coord1.cols → ColPrintsLike tos coord1 coordP i (tP i))
    (hdiff2 : ∀ a b, 1 ≤ a → a ≤ coord2.cols → 1 ≤ b → b ≤ coord2.cols → ColPrintsLike tos coord2 coord2 a b → a = b)
    (hdiffP : ∀ a b, 1 ≤ a → a ≤ coordP.cols → 1 ≤ b → b ≤ coordP.cols → ColPrintsLike tos coordP coordP a b → a = b) :
    TransferComplex.unscramble tos { T with coef2 := read2, coefP := readP, S := readS } coord1 coord2 coordP
      (reorderedBasis basis orderP) (reorderedBasis basis order2) = .ok { T with unscrambled := true } ∧
    ∀ orbtype orbnum, TransferComplex.calcJ { T with unscrambled := true } orbtype orbnum = T.calcJ orbtype orbnum := by
  refine ⟨?_, fun _ _ => rfl⟩
  have c1 := k1.cols1
  have prep : ∀ (order : List Int) (t : Int → Int) (coord : Mat α), order.Perm (irange 1 basis.length) → coord.cols = basis.length →
      (∀ i : Int, 1 ≤ i → i ≤ basis.length → 1 ≤ t i ∧ order[(t i - 1).toNat]? = some i) →
      Undoes basis.length order ((irange 1 coord1.cols).map t) ∧
      (∀ i, 1 ≤ i → i ≤ coord1.cols → t i ≤ coord.cols) := by
    intro order t coord ho hc ht
    have hol : order.length = basis.length := by rw [ho.length_eq]; simp
    refine ⟨⟨ho, by simp; omega, ?_⟩, ?_⟩
    · intro i x hx
      rw [List.getElem?_map] at hx
      have hi : i < (irange 1 coord1.cols).length := by
        by_contra hcon
        rw [List.getElem?_eq_none (by omega)] at hx
        cases hx
      rw [List.getElem?_eq_getElem hi, getElem_irange] at hx
      simp only [Option.map_some, Option.some.injEq] at hx
      subst hx
      have e : (1 : Int) + i = i + 1 := by omega
      rw [e]
      refine ht (i + 1) (by omega) (by simp at hi; omega)
    · intro i i1 i2
      have := (List.getElem?_eq_some_iff.1 (ht i i1 (by omega)).2).1
      omega
  obtain ⟨u2, b2⟩ := prep order2 t2 coord2 ho2 n2 ht2
  obtain ⟨uP, bP⟩ := prep orderP tP coordP hoP nP htP
  have m2 := (C23_matchCol_recovers tos k1 k2 s1 s2 r2 t2
    (fun i i1 i2 => ⟨(ht2 i i1 (by omega)).1, b2 i i1 i2, hlike2 i i1 i2⟩) hdiff2).1
  have mP := (C23_matchCol_recovers tos k1 kp s1 sp r1 tP
    (fun i i1 i2 => ⟨(htP i i1 (by omega)).1, bP i i1 i2, hlikeP i i1 i2⟩) hdiffP).1
  have hne : basis ≠ [] := by rintro rfl; simp at n1; omega
  unfold TransferComplex.unscramble
  simp only [hcp, if_true, m2, Res.ok_bind]
  rw [C31_coef_one _ hb hne u2 h2 h2s h2c hr2]
  simp only [mP, Res.ok_bind]
  rw [C31_coef_one _ hb hne uP hP hPs hPc hrP]
  simp only [Res.ok_bind]
  rw [C31_overlap_one _ hb hne uP hS hSs hSc hSr hrS]
  rfl

/-- The example: three atoms with 1, 1 and 1 functions, the dimer listing atom 3 first. -/
def exOrder : List Int := [3, 1, 2]
example : Undoes 3 exOrder ([2, 3] ++ [1]) := by
  refine ⟨by decide, by decide, ?_⟩
  intro i t h
  match i with
  | 0 => cases h; decide
  | 1 => cases h; decide
  | 2 => cases h; decide
  | n + 3 => simp at h
example : unscrambleCoef2 [2, 3] [1] (reorderedBasis [1, 1, 1] exOrder)
    (⟨2, 3, 1, [some 3, some 1, some 2, some 6, some 4, some 5]⟩ : Mat Int) = .ok ex23 := by decide

end Verif.QC
