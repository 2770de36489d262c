import Verif.JobLemmas
/-
Reordered files: lemmas for C79.
-/
namespace Verif
open Strings Readers QC Mat Log Pun Job

section
variable {α β : Type}

theorem exists_values (f : Int → Int → α) {r c : Int} (hr : 1 ≤ r) (hc : 1 ≤ c) : ∃ m : Mat α, Values m r c f := by
  let vv : List (List α) := (List.range r.toNat).map (fun (i : Nat) => (List.range c.toNat).map (fun (j : Nat) => f ((i : Int) + 1) ((j : Int) + 1)))
  have hl : ∀ v ∈ vv, v.length = c.toNat := by
    intro v hv
    obtain ⟨i, -, rfl⟩ := List.mem_map.1 hv
    simp
  have hvl : vv.length = r.toNat := by simp [vv]
  obtain ⟨v0, h0⟩ : ∃ v0, vv.head? = some v0 := by
    cases h : vv with
    | nil => rw [h] at hvl; simp at hvl; omega
    | cons v w => exact ⟨v, rfl⟩
  have h0l := hl v0 (List.mem_of_head? h0)
  obtain ⟨m, -, hi, h1, h2, h3, hv⟩ := (C04_ofVecVec vv).2.2 v0 h0 (fun v h => by rw [hl v h, h0l])
  have e1 : m.rows = r := by omega
  have e2 : m.cols = c := by omega
  refine ⟨m, ⟨hi, by omega, by omega, by omega⟩, e1, e2, h3, fun i j i1 i2 j1 j2 => ?_⟩
  have ht : (i - 1).toNat < vv.length := by omega
  have := hv _ ht (j - 1).toNat (by rw [hl _ (List.getElem_mem ht)]; omega)
  rw [show (((i - 1).toNat : Int) + 1) = i by omega, show (((j - 1).toNat : Int) + 1) = j by omega] at this
  rw [this]
  simp only [vv, List.getElem_map, List.getElem_range]
  congr 2 <;> omega

theorem QC.Values.getElem2_eq {m : Mat α} {r c : Int} {f : Int → Int → α} (h : Values m r c f) (i j : Int) :
    m.getElem2 i j = if 1 ≤ i ∧ i ≤ r ∧ 1 ≤ j ∧ j ≤ c then .ok (f i j) else .exit 1 := by
  rw [h.isMat.get2_eq (by omega)]

theorem columnsReordered {basis order : List Int} (hb : ∀ b ∈ basis, 1 ≤ b) (ho : order.Perm (irange 1 basis.length)) {M n : Int}
    (hn : n = basis.sum) {read al : Mat α} {f g : Int → Int → α}
    (hr : Values read M n g) (ha : Values al M n f) (h : ColumnsAs basis order f g) : ColumnsReordered basis order al read := by
  refine ⟨hr.wf, hr.shel, by rw [hr.rows, ha.rows], by rw [hr.cols, ha.cols], fun i q c e => ?_⟩
  have p := colsOf_perm hb ho
  have hc : c ∈ irange 1 basis.sum := p.mem_iff.1 (List.mem_of_getElem? e)
  have hq : q < (colsOf basis order).length := (List.getElem?_eq_some_iff.1 e).1
  rw [p.length_eq] at hq
  simp at hc hq
  rw [hr.getElem2_eq, ha.getElem2_eq, h i q c e]
  by_cases hi : 1 ≤ i ∧ i ≤ M
  · rw [if_pos (by omega), if_pos (by omega)]
  · rw [if_neg (by omega), if_neg (by omega)]

theorem bothReordered {basis order : List Int} (hb : ∀ b ∈ basis, 1 ≤ b) (ho : order.Perm (irange 1 basis.length)) {n : Int}
    (hn : n = basis.sum) {read al : Mat α} {f g : Int → Int → α}
    (hr : Values read n n g) (ha : Values al n n f) (h : BothAs basis order f g) : BothReordered basis order al read := by
  refine ⟨hr.wf, hr.shel, by rw [hr.rows, ha.rows], by rw [hr.cols, ha.cols], fun p q r c e e' => ?_⟩
  have pm := colsOf_perm hb ho
  have hc : c ∈ irange 1 basis.sum := pm.mem_iff.1 (List.mem_of_getElem? e')
  have hq : q < (colsOf basis order).length := (List.getElem?_eq_some_iff.1 e').1
  have hc' : r ∈ irange 1 basis.sum := pm.mem_iff.1 (List.mem_of_getElem? e)
  have hq' : p < (colsOf basis order).length := (List.getElem?_eq_some_iff.1 e).1
  rw [pm.length_eq] at hq hq'
  simp at hc hq hc' hq'
  rw [hr.getElem2_eq, ha.getElem2_eq, h p q r c e e', if_pos (by omega), if_pos (by omega)]

/-- Where the atoms are found. -/
def place (order : List Int) (i : Int) : Int := order.idxOf i + 1

theorem place_spec {order : List Int} {n : Nat} (h : order.Perm (irange 1 n)) (i : Int) (i1 : 1 ≤ i) (i2 : i ≤ n) :
    1 ≤ place order i ∧ place order i ≤ n ∧ order[(place order i - 1).toNat]? = some i := by
  have hm : i ∈ order := h.mem_iff.2 (by simp; omega)
  have hl := List.idxOf_lt_length_of_mem hm
  have hn : order.length = n := by rw [h.length_eq]; simp
  unfold place
  refine ⟨by omega, by omega, ?_⟩
  rw [show ((order.idxOf i : Int) + 1 - 1).toNat = order.idxOf i by omega, List.getElem?_eq_getElem hl, List.getElem_idxOf]

variable [DecidableEq β]

/-- Coordinates as a matrix. -/
structure CoordsOf (m : Mat α) (xs : List (α × α × α)) : Prop where
  init : Init m
  rows : m.rows = 3
  cols : m.cols = xs.length
  shel : m.shel = 1
  val : ∀ k (h : k < xs.length), m.getElem2 1 (k + 1) = .ok xs[k].1 ∧ m.getElem2 2 (k + 1) = .ok xs[k].2.1 ∧
      m.getElem2 3 (k + 1) = .ok xs[k].2.2

omit [DecidableEq β] in
theorem CoordsOf.like {tos : α → β} {m m' : Mat α} {rows rows' : List (α × α × α)} (h : CoordsOf m rows) (h' : CoordsOf m' rows')
    {i i' : Int} (i1 : 1 ≤ i) (i2 : i ≤ rows.length) (j1 : 1 ≤ i') (j2 : i' ≤ rows'.length) :
    ColPrintsLike tos m m' i i' ↔ Alike tos (rows[(i - 1).toNat]'(by omega)) (rows'[(i' - 1).toNat]'(by omega)) := by
  obtain ⟨a1, a2, a3⟩ := h.val (i - 1).toNat (by omega)
  obtain ⟨b1, b2, b3⟩ := h'.val (i' - 1).toNat (by omega)
  rw [show (((i - 1).toNat : Int) + 1) = i by omega] at a1 a2 a3
  rw [show (((i' - 1).toNat : Int) + 1) = i' by omega] at b1 b2 b3
  unfold ColPrintsLike Alike
  rw [h.rows]
  constructor
  · intro hh
    obtain ⟨x, y, e, e', p⟩ := hh 1 (by omega) (by omega)
    obtain ⟨x2, y2, f, f', p2⟩ := hh 2 (by omega) (by omega)
    obtain ⟨x3, y3, g, g', p3⟩ := hh 3 (by omega) (by omega)
    rw [a1] at e; rw [b1] at e'; rw [a2] at f; rw [b2] at f'; rw [a3] at g; rw [b3] at g'
    cases e; cases e'; cases f; cases f'; cases g; cases g'
    exact ⟨p, p2, p3⟩
  · rintro ⟨p, p2, p3⟩ j hj1 hj2
    have : j = 1 ∨ j = 2 ∨ j = 3 := by omega
    rcases this with rfl | rfl | rfl
    · exact ⟨_, _, a1, b1, p⟩
    · exact ⟨_, _, a2, b2, p2⟩
    · exact ⟨_, _, a3, b3, p3⟩

omit [DecidableEq β] in
theorem CoordsOf.distinct {tos : α → β} {m : Mat α} {rows : List (α × α × α)} (h : CoordsOf m rows)
    (hd : rows.Pairwise (fun x y => ¬ Alike tos x y)) (a b : Int) (a1 : 1 ≤ a) (a2 : a ≤ m.cols) (b1 : 1 ≤ b) (b2 : b ≤ m.cols)
    (hl : ColPrintsLike tos m m a b) : a = b := by
  rw [h.cols] at a2 b2
  rw [h.like h a1 a2 b1 b2] at hl
  rw [List.pairwise_iff_getElem] at hd
  rcases Int.lt_trichotomy a b with hab | hab | hab
  · exact absurd hl (hd _ _ _ _ (by omega))
  · exact hab
  · exact absurd ⟨hl.1.symm, hl.2.1.symm, hl.2.2.symm⟩ (hd (b - 1).toNat (a - 1).toNat (by omega) (by omega) (by omega))

end

section
variable {α β : Type} [Zero α] [One α] [Add α] [Sub α] [Mul α] [Div α] [DecidableEq β]

theorem unscramble_aligned (tos : α → β) (basis order basis2 : List Int) (hb : ∀ b ∈ basis, 1 ≤ b) {rows1 rows2 rowsP : List (α × α × α)}
    (hre : Reordered tos order (rows1 ++ rows2) rowsP) (hlen : basis.length = rows1.length + rows2.length)
    (ne1 : rows1 ≠ []) (ne2 : rows2 ≠ []) {n M : Int} (hn : n = basis.sum) {read readS al alS : Mat α} {f g s s' : Int → Int → α}
    (hr : Values read M n g) (ha : Values al M n f) (hS : Values readS n n s') (haS : Values alS n n s)
    (hC : ColumnsAs basis order f g) (hs : BothAs basis order s s') {x1 x2 xP : Mat α}
    (k1 : CoordsOf x1 rows1) (k2 : CoordsOf x2 rows2) (kP : CoordsOf xP rowsP) (c1 c2 o1 o2 oe u) :
    TransferComplex.unscramble tos ⟨c1, c2, read, o1, o2, readS, oe, u, false⟩ x1 x2 xP (reorderedBasis basis order) basis2 =
      .ok ⟨c1, c2, al, o1, o2, alS, oe, true, false⟩ := by
  have l1 : 0 < rows1.length := List.length_pos_iff.2 ne1
  have l2 : 0 < rows2.length := List.length_pos_iff.2 ne2
  have hp : order.Perm (irange 1 basis.length) := by
    have := hre.perm
    rw [List.length_append] at this
    rw [hlen]; exact this
  have lP : rowsP.length = basis.length := by have := hre.length; rw [List.length_append] at this; omega
  have wf : ∀ {m : Mat α} {rows : List (α × α × α)}, CoordsOf m rows → 0 < rows.length → WF m := by
    intro m rows h hl
    exact ⟨h.init, by have := h.rows; omega, by have := h.cols; omega, by have := h.shel; omega⟩
  have hal : ∀ (i : Int) (i1 : 1 ≤ i) (i2 : i ≤ basis.length), ∀ y, (rows1 ++ rows2)[(i - 1).toNat]? = some y →
      Alike tos y (rowsP[(place order i - 1).toNat]'(by have := place_spec hp i i1 i2; omega)) := by
    intro i i1 i2 y hy
    obtain ⟨p1, p2, p3⟩ := place_spec hp i i1 i2
    exact hre.alike _ _ _ _ p3 (List.getElem?_eq_getElem (by omega)) hy
  refine (C31_transfer_complex tos basis order basis2 hb hp ⟨c1, c2, al, o1, o2, alS, oe, u, false⟩ rfl ha.wf ha.shel
    (by rw [← hn]; exact ha.cols) haS.wf haS.shel (by rw [← hn]; exact haS.cols) (by rw [← hn]; exact haS.rows) read readS
    (columnsReordered hb hp hn hr ha hC) (bothReordered hb hp hn hS haS hs) x1 x2 xP (wf k1 l1) (wf k2 l2) (wf kP (by omega))
    k1.shel k2.shel kP.shel (by rw [kP.rows, k1.rows]) (by rw [kP.rows, k2.rows]) (by rw [k1.cols, k2.cols]; omega) (by rw [kP.cols]; omega)
    (place order) (fun i i1 i2 => ⟨(place_spec hp i i1 i2).1, (place_spec hp i i1 i2).2.2⟩) ?_ ?_ (kP.distinct hre.distinct)).1
  · intro i i1 i2
    rw [k1.cols] at i2
    obtain ⟨p1, p2, -⟩ := place_spec hp i i1 (by omega)
    rw [k1.like kP i1 i2 p1 (by omega)]
    apply hal i i1 (by omega)
    rw [List.getElem?_append_left (by omega)]
    exact List.getElem?_eq_getElem _
  · intro i i1 i2
    rw [k2.cols] at i2
    obtain ⟨p1, p2, -⟩ := place_spec hp (x1.cols + i) (by rw [k1.cols]; omega) (by rw [k1.cols]; omega)
    rw [k2.like kP i1 i2 p1 (by omega)]
    apply hal (x1.cols + i) (by rw [k1.cols]; omega) (by rw [k1.cols]; omega)
    rw [List.getElem?_append_right (by rw [k1.cols]; omega), ← List.getElem?_eq_getElem]
    congr 1
    rw [k1.cols]; omega

theorem unscramble_aligned_cp (tos : α → β) (basis order2 order : List Int) (hb : ∀ b ∈ basis, 1 ≤ b) {rows1 rows2 rowsP : List (α × α × α)}
    (hre2 : Reordered tos order2 rows1 rows2) (hre : Reordered tos order rows1 rowsP) (hlen : basis.length = rows1.length)
    (ne1 : rows1 ≠ []) {n M N2 : Int} (hn : n = basis.sum) {read2 al2 read readS al alS : Mat α} {f2 g2 f g s s' : Int → Int → α}
    (hr2 : Values read2 N2 n g2) (ha2 : Values al2 N2 n f2)
    (hr : Values read M n g) (ha : Values al M n f) (hS : Values readS n n s') (haS : Values alS n n s)
    (hC2 : ColumnsAs basis order2 f2 g2) (hC : ColumnsAs basis order f g) (hs : BothAs basis order s s') {x1 x2 xP : Mat α}
    (k1 : CoordsOf x1 rows1) (k2 : CoordsOf x2 rows2) (kP : CoordsOf xP rowsP) (c1 o1 o2 oe u) :
    TransferComplex.unscramble tos ⟨c1, read2, read, o1, o2, readS, oe, u, true⟩ x1 x2 xP (reorderedBasis basis order)
        (reorderedBasis basis order2) = .ok ⟨c1, al2, al, o1, o2, alS, oe, true, true⟩ := by
  have l1 : 0 < rows1.length := List.length_pos_iff.2 ne1
  have hp2 : order2.Perm (irange 1 basis.length) := by rw [hlen]; exact hre2.perm
  have hp : order.Perm (irange 1 basis.length) := by rw [hlen]; exact hre.perm
  have lP := hre.length
  have l2 := hre2.length
  have wf : ∀ {m : Mat α} {rows : List (α × α × α)}, CoordsOf m rows → 0 < rows.length → WF m := by
    intro m rows h hl
    exact ⟨h.init, by have := h.rows; omega, by have := h.cols; omega, by have := h.shel; omega⟩
  have hal : ∀ {x : Mat α} {rows order}, Reordered tos order rows1 rows → CoordsOf x rows → order.Perm (irange 1 basis.length) →
      ∀ i, 1 ≤ i → i ≤ x1.cols → ColPrintsLike tos x1 x i (place order i) := by
    intro x rows order hre k hp i i1 i2
    rw [k1.cols] at i2
    have := hre.length
    obtain ⟨p1, p2, p3⟩ := place_spec hp i i1 (by omega)
    rw [k1.like k i1 i2 p1 (by omega)]
    exact hre.alike _ _ _ _ p3 (List.getElem?_eq_getElem (by omega)) (List.getElem?_eq_getElem _)
  exact (C31_transfer_complex_cp tos basis order2 order hb hp2 hp ⟨c1, al2, al, o1, o2, alS, oe, u, true⟩ rfl
    ha2.wf ha2.shel (by rw [← hn]; exact ha2.cols) ha.wf ha.shel
    (by rw [← hn]; exact ha.cols) haS.wf haS.shel (by rw [← hn]; exact haS.cols) (by rw [← hn]; exact haS.rows) read2 read readS
    (columnsReordered hb hp2 hn hr2 ha2 hC2)
    (columnsReordered hb hp hn hr ha hC) (bothReordered hb hp hn hS haS hs) x1 x2 xP (wf k1 l1) (wf k2 (by omega)) (wf kP (by omega))
    k1.shel k2.shel kP.shel (by rw [kP.rows, k1.rows]) (by rw [k2.rows, k1.rows]) (by rw [k1.cols]; omega) (by rw [k2.cols]; omega)
    (by rw [kP.cols]; omega) (place order2) (place order)
    (fun i i1 i2 => ⟨(place_spec hp2 i i1 i2).1, (place_spec hp2 i i1 i2).2.2⟩)
    (fun i i1 i2 => ⟨(place_spec hp i i1 i2).1, (place_spec hp i i1 i2).2.2⟩)
    (hal hre2 k2 hp2) (hal hre kP hp) (k2.distinct hre2.distinct) (kP.distinct hre.distinct)).1

end
end Verif
