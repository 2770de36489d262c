import Verif.Props.QCReorder
import Verif.Props.Transfer
import Verif.Spec.Main
import Mathlib.Data.List.Perm.Subperm
/-
Renumbering the atoms of a dimer: what happens to the order of the columns. Used for C88.
-/
namespace Verif.QC
open Job

/-- Old number of the basis function that gets number `j` when the atoms are listed in the order `r`. -/
def colMap (basis r : List Int) (j : Int) : Int := (colsOf basis r).getD (j - 1).toNat 0

theorem colMap_relabelling {basis r : List Int} (hb : ∀ b ∈ basis, 1 ≤ b) (hr : r.Perm (irange 1 basis.length)) :
    Relabelling basis.sum (colMap basis r) := by
  have hp := colsOf_perm hb hr
  have hlen : ((colsOf basis r).length : Int) = basis.sum := by
    rw [hp.length_eq]; exact irange_length_of_nonneg (sum_nonneg hb)
  have hnd : (colsOf basis r).Nodup := hp.nodup_iff.2 (nodup_irange _ _)
  have get : ∀ p, 1 ≤ p → p ≤ basis.sum → ∃ h : (p - 1).toNat < (colsOf basis r).length, colMap basis r p = (colsOf basis r)[(p - 1).toNat] := by
    intro p p1 p2
    have h : (p - 1).toNat < (colsOf basis r).length := by omega
    refine ⟨h, ?_⟩
    unfold colMap
    rw [List.getD_eq_getElem?_getD, List.getElem?_eq_getElem h]; rfl
  constructor
  · intro p p1 p2
    obtain ⟨h, e⟩ := get p p1 p2
    rw [e]
    exact mem_irange.1 (hp.mem_iff.1 (List.getElem_mem h))
  · intro p q p1 p2 q1 q2 e
    obtain ⟨h, e1⟩ := get p p1 p2
    obtain ⟨h', e2⟩ := get q q1 q2
    rw [e1, e2] at e
    have := (hnd.getElem_inj_iff).1 e
    omega

/-- The new number `k` of an atom means the old number `r[k]`. -/
def oldNumber (r : List Int) (k : Int) : Int := r.getD (k - 1).toNat 0

theorem oldNumber_get {r : List Int} {k : Int} (h1 : 1 ≤ k) (h2 : k ≤ r.length) : r[(k - 1).toNat]? = some (oldNumber r k) := by
  have h : (k - 1).toNat < r.length := by omega
  unfold oldNumber
  rw [List.getD_eq_getElem?_getD, List.getElem?_eq_getElem h]; rfl

theorem colsOf_renumber {basis r : List Int} (hb : ∀ b ∈ basis, 1 ≤ b) (hr : r.Perm (irange 1 basis.length)) {order : List Int}
    (ho : ∀ k ∈ order, 1 ≤ k ∧ k ≤ basis.length) :
    (colsOf (reorderedBasis basis r) order).map (colMap basis r) = colsOf basis (order.map (oldNumber r)) := by
  have hl : r.length = basis.length := by rw [hr.length_eq, length_irange]; omega
  unfold colsOf
  rw [List.map_flatMap, List.flatMap_map]
  refine List.flatMap_congr fun k hk => ?_
  obtain ⟨k1, k2⟩ := ho k hk
  have := atomCols_reordered hb hr (oldNumber_get k1 (by omega))
  have e : (((k - 1).toNat : Nat) : Int) + 1 = k := by omega
  rw [e] at this
  exact this

theorem reorderedBasis_renumber {basis r : List Int} (hr : r.Perm (irange 1 basis.length)) {order : List Int}
    (ho : ∀ k ∈ order, 1 ≤ k ∧ k ≤ basis.length) :
    reorderedBasis (reorderedBasis basis r) order = reorderedBasis basis (order.map (oldNumber r)) := by
  have hl : r.length = basis.length := by rw [hr.length_eq, length_irange]; omega
  unfold reorderedBasis
  rw [List.map_map]
  refine List.map_congr_left fun k hk => ?_
  obtain ⟨k1, k2⟩ := ho k hk
  have h := oldNumber_get (r := r) k1 (by omega)
  simp only [Function.comp]
  rw [List.getD_eq_getElem?_getD, List.getElem?_map, h]
  rfl

/-- Renumbering and its inverse. -/
theorem Undoes.old_new {n : Nat} {r inv : List Int} (h : Undoes n r inv) {a : Int} (h1 : 1 ≤ a) (h2 : a ≤ n) :
    1 ≤ oldNumber inv a ∧ oldNumber inv a ≤ n ∧ oldNumber r (oldNumber inv a) = a := by
  have g := oldNumber_get (r := inv) h1 (by rw [h.2.1]; exact h2)
  have i1 := h.injective.2 _ (List.mem_of_getElem? g)
  obtain ⟨-, e⟩ := h.2.2 _ _ g
  refine ⟨i1.1, i1.2, ?_⟩
  have hl : r.length = n := by rw [h.1.length_eq, length_irange]; omega
  have := oldNumber_get (r := r) i1.1 (by omega)
  rw [e] at this
  have := Option.some.inj this
  omega

theorem Undoes.perm {n : Nat} {r inv : List Int} (h : Undoes n r inv) : inv.Perm (irange 1 n) := by
  refine (List.subperm_of_subset h.injective.1 ?_).perm_of_length_le ?_
  · intro t ht; exact mem_irange.2 (h.injective.2 t ht)
  · rw [h.2.1, length_irange]; omega

theorem map_oldNumber_self {n : Nat} {inv : List Int} (h : inv.length = n) : (irange 1 n).map (oldNumber inv) = inv := by
  apply List.ext_getElem
  · rw [List.length_map, length_irange, h]; omega
  · intro k h1 h2
    rw [List.getElem_map, getElem_irange]
    have := oldNumber_get (r := inv) (k := 1 + k) (by omega) (by omega)
    rw [show (1 + (k : Int) - 1).toNat = k by omega, List.getElem?_eq_getElem h2] at this
    exact (Option.some.inj this).symm

/-- The new numbers of a listing of all atoms. -/
theorem renumbered_perm {n : Nat} {r inv order : List Int} (h : Undoes n r inv) (ho : order.Perm (irange 1 n)) :
    (order.map (oldNumber inv)).Perm (irange 1 n) := by
  refine (ho.map _).trans ?_
  rw [map_oldNumber_self h.2.1]
  exact h.perm

theorem renumbered_old {n : Nat} {r inv order : List Int} (h : Undoes n r inv) (ho : order.Perm (irange 1 n)) :
    (order.map (oldNumber inv)).map (oldNumber r) = order := by
  rw [List.map_map]
  conv => rhs; rw [← List.map_id order]
  refine List.map_congr_left fun a ha => ?_
  have := mem_irange.1 (ho.mem_iff.1 ha)
  exact (h.old_new this.1 this.2).2.2

variable {α β : Type}

theorem _root_.Verif.Job.Reordered.renumber {tos : α → β} {order r inv : List Int} {ref rows ref' : List (α × α × α)} (h : Reordered tos order ref rows)
    (hu : Undoes ref.length r inv) (hlen : ref'.length = ref.length)
    (hl : ∀ (k : Nat) a x y, r[k]? = some a → ref'[k]? = some x → ref[(a - 1).toNat]? = some y → Alike tos y x) :
    Reordered tos (order.map (oldNumber inv)) ref' rows := by
  constructor
  · rw [hlen]; exact renumbered_perm hu h.perm
  · rw [hlen]; exact h.length
  · intro k a' x y' ha' hx hy'
    rw [List.getElem?_map] at ha'
    obtain ⟨a, ha, rfl⟩ := Option.map_eq_some_iff.1 ha'
    have hm := mem_irange.1 (h.perm.mem_iff.1 (List.mem_of_getElem? ha))
    obtain ⟨o1, o2, o3⟩ := hu.old_new hm.1 hm.2
    have hi : (a - 1).toNat < ref.length := by omega
    have hy := List.getElem?_eq_getElem hi
    have hA := h.alike k a x _ ha hx hy
    have hrl : r.length = ref.length := by rw [hu.1.length_eq, length_irange]; omega
    have hr := oldNumber_get (r := r) o1 (by omega)
    rw [o3] at hr
    have hB := hl _ _ _ _ hr hy' hy
    exact ⟨hB.1.symm.trans hA.1, hB.2.1.symm.trans hA.2.1, hB.2.2.symm.trans hA.2.2⟩
  · exact h.distinct

theorem _root_.Verif.Job.ColumnsAs.renumber {basis r inv order : List Int} (hb : ∀ b ∈ basis, 1 ≤ b) (hu : Undoes basis.length r inv)
    (ho : order.Perm (irange 1 basis.length)) {f g : Int → Int → α} (h : ColumnsAs basis order f g) :
    ColumnsAs (reorderedBasis basis r) (order.map (oldNumber inv)) (fun i j => f i (colMap basis r j)) g := by
  intro i q c hc
  have hin : ∀ k ∈ order.map (oldNumber inv), 1 ≤ k ∧ k ≤ basis.length :=
    fun k hk => mem_irange.1 ((renumbered_perm hu ho).mem_iff.1 hk)
  have e := colsOf_renumber hb hu.1 hin
  rw [renumbered_old hu ho] at e
  refine h i q (colMap basis r c) ?_
  rw [← e, List.getElem?_map, hc]
  rfl

theorem _root_.Verif.Job.BothAs.renumber {basis r inv order : List Int} (hb : ∀ b ∈ basis, 1 ≤ b) (hu : Undoes basis.length r inv)
    (ho : order.Perm (irange 1 basis.length)) {f g : Int → Int → α} (h : BothAs basis order f g) :
    BothAs (reorderedBasis basis r) (order.map (oldNumber inv)) (fun i j => f (colMap basis r i) (colMap basis r j)) g := by
  intro p q c d hc hd
  have hin : ∀ k ∈ order.map (oldNumber inv), 1 ≤ k ∧ k ≤ basis.length :=
    fun k hk => mem_irange.1 ((renumbered_perm hu ho).mem_iff.1 hk)
  have e := colsOf_renumber hb hu.1 hin
  rw [renumbered_old hu ho] at e
  refine h p q (colMap basis r c) (colMap basis r d) ?_ ?_
  · rw [← e, List.getElem?_map, hc]; rfl
  · rw [← e, List.getElem?_map, hd]; rfl

theorem reorderedBasis_renumbered {basis r inv order : List Int} (hu : Undoes basis.length r inv) (ho : order.Perm (irange 1 basis.length)) :
    reorderedBasis (reorderedBasis basis r) (order.map (oldNumber inv)) = reorderedBasis basis order := by
  rw [reorderedBasis_renumber hu.1 (fun k hk => mem_irange.1 ((renumbered_perm hu ho).mem_iff.1 hk)), renumbered_old hu ho]

/-! ### Exchanging two blocks of atoms -/

/-- New listing: atoms `k1+1 .. k1+k2`, then `1 .. k1`. -/
def swapOrder (k1 k2 : Nat) : List Int := irange (k1 + 1) (k1 + k2) ++ irange 1 k1

theorem swapOrder_get {k1 k2 k : Nat} (h : k < k1 + k2) : (swapOrder k1 k2)[k]? = some (if k < k2 then (k1 : Int) + 1 + k else (k : Int) - k2 + 1) := by
  have hl : (irange ((k1 : Int) + 1) (k1 + k2)).length = k2 := by rw [length_irange]; omega
  unfold swapOrder
  by_cases hk : k < k2
  · rw [List.getElem?_append_left (by omega), List.getElem?_eq_getElem (by omega), getElem_irange, if_pos hk]
  · have hl2 : (irange 1 (k1 : Int)).length = k1 := by rw [length_irange]; omega
    rw [List.getElem?_append_right (by omega), List.getElem?_eq_getElem (by omega), getElem_irange, if_neg hk]
    congr 1; omega

theorem swapOrder_length (k1 k2 : Nat) : (swapOrder k1 k2).length = k1 + k2 := by
  unfold swapOrder
  rw [List.length_append, length_irange, length_irange]; omega

theorem swapOrder_perm (k1 k2 : Nat) : (swapOrder k1 k2).Perm (irange 1 ((k1 + k2 : Nat) : Int)) := by
  unfold swapOrder
  refine List.perm_append_comm.trans ?_
  rw [irange_append (by omega) (by omega)]
  simp

theorem swapOrder_undoes (k1 k2 : Nat) : Undoes (k1 + k2) (swapOrder k1 k2) (swapOrder k2 k1) := by
  refine ⟨swapOrder_perm k1 k2, by rw [swapOrder_length]; omega, ?_⟩
  intro i t ht
  have hi := (List.getElem?_eq_some_iff.1 ht).1
  rw [swapOrder_length] at hi
  rw [swapOrder_get (by omega)] at ht
  have ht := Option.some.inj ht
  split at ht
  · refine ⟨by omega, ?_⟩
    rw [swapOrder_get (by omega), if_neg (by omega)]
    congr 1; omega
  · refine ⟨by omega, ?_⟩
    rw [swapOrder_get (by omega), if_pos (by omega)]
    congr 1; omega

end Verif.QC
