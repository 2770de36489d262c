import Verif.SymmetryLemmas
import Verif.Props.Job
import Verif.ConcreteJob
/-
Property C88: it does not matter which of the two monomers is called the first.
-/
namespace Verif
open Strings Readers QC Mat Log Pun Job

/-- The same request with the two monomers exchanged. -/
def Job.exchanged (p : Params.Params) : Params.Params :=
  { p with
    log1 := p.log2, log2 := p.log1, pun1 := p.pun2, pun2 := p.pun1, spin1 := p.spin2, spin2 := p.spin1, orbType1 := p.orbType2, orbType2 := p.orbType1, orbNum1 := p.orbNum2, orbNum2 := p.orbNum1 }

theorem colsOf_append (basis a b : List Int) : colsOf basis (a ++ b) = colsOf basis a ++ colsOf basis b := by
  simp [colsOf]

theorem colsOf_first {b1 b2 : List Int} (hb : ∀ b ∈ b1, 1 ≤ b) : colsOf (b1 ++ b2) (irange 1 b1.length) = irange 1 b1.sum := by
  rw [← colsOf_all hb]
  unfold colsOf
  refine List.flatMap_congr fun k hk => ?_
  have := mem_irange.1 hk
  unfold atomCols
  rw [List.take_append_of_le_length (by omega), List.take_append_of_le_length (by omega)]

theorem colsOf_second {b1 b2 : List Int} (hb1 : ∀ b ∈ b1, 1 ≤ b) (hb2 : ∀ b ∈ b2, 1 ≤ b) :
    colsOf (b1 ++ b2) (irange (b1.length + 1) (b1.length + b2.length)) = irange (b1.sum + 1) (b1.sum + b2.sum) := by
  have hb : ∀ b ∈ b1 ++ b2, 1 ≤ b := fun b h => (List.mem_append.1 h).elim (hb1 b) (hb2 b)
  have e := colsOf_all hb
  have s1 := QC.sum_nonneg hb1
  have s2 := QC.sum_nonneg hb2
  rw [List.length_append, List.sum_append, Int.natCast_add, ← irange_append (a := 1) (b := b1.length) (c := b1.length + b2.length) (by omega) (by omega),
    ← irange_append (a := 1) (b := b1.sum) (c := b1.sum + b2.sum) (by omega) (by omega), colsOf_append, colsOf_first hb1] at e
  exact List.append_cancel_left e

theorem colMap_swap {b1 b2 : List Int} (hb1 : ∀ b ∈ b1, 1 ≤ b) (hb2 : ∀ b ∈ b2, 1 ≤ b) {p : Int} (p1 : 1 ≤ p) (p2 : p ≤ b1.sum + b2.sum) :
    colMap (b1 ++ b2) (swapOrder b1.length b2.length) p = blockSwap b1.sum b2.sum p := by
  have s1 := QC.sum_nonneg hb1
  have s2 := QC.sum_nonneg hb2
  unfold colMap swapOrder blockSwap
  rw [colsOf_append, colsOf_second hb1 hb2, colsOf_first hb1, List.getD_eq_getElem?_getD]
  have l2 : (irange (b1.sum + 1) (b1.sum + b2.sum)).length = b2.sum.toNat := by rw [length_irange]; omega
  have l1 : (irange 1 b1.sum).length = b1.sum.toNat := by rw [length_irange]; omega
  by_cases h : p ≤ b2.sum
  · rw [List.getElem?_append_left (by omega), List.getElem?_eq_getElem (by omega), getElem_irange, if_pos h]
    simp only [Option.getD_some]; omega
  · rw [List.getElem?_append_right (by omega), List.getElem?_eq_getElem (by omega), getElem_irange, if_neg h]
    simp only [Option.getD_some]; omega

theorem exists_columns {α : Type} [Zero α] {basis order : List Int} (hb : ∀ b ∈ basis, 1 ≤ b) (ho : order.Perm (irange 1 basis.length))
    (g : Int → Int → α) : ∃ C, ColumnsAs basis order C g := by
  have hnd : (colsOf basis order).Nodup := (colsOf_perm hb ho).nodup_iff.2 (nodup_irange _ _)
  refine ⟨fun i c => g i ((colsOf basis order).idxOf c + 1), ?_⟩
  intro i q c hc
  obtain ⟨h, e⟩ := List.getElem?_eq_some_iff.1 hc
  subst e
  simp only [hnd.idxOf_getElem]

theorem exists_both {α : Type} [Zero α] {basis order : List Int} (hb : ∀ b ∈ basis, 1 ≤ b) (ho : order.Perm (irange 1 basis.length))
    (g : Int → Int → α) : ∃ s, BothAs basis order s g := by
  have hnd : (colsOf basis order).Nodup := (colsOf_perm hb ho).nodup_iff.2 (nodup_irange _ _)
  refine ⟨fun r c => g ((colsOf basis order).idxOf r + 1) ((colsOf basis order).idxOf c + 1), ?_⟩
  intro p q r c hr hc
  obtain ⟨h, e⟩ := List.getElem?_eq_some_iff.1 hc
  obtain ⟨h', e'⟩ := List.getElem?_eq_some_iff.1 hr
  subst e; subst e'
  simp only [hnd.idxOf_getElem]

section
variable {α β : Type} [Field α] [Num α] [DecidableEq β] {D : Type} [Args.Dbl D]

omit [DecidableEq β] in
theorem jobCoupling_exchange {b1 b2 : List Int} (hb1 : ∀ b ∈ b1, 1 ≤ b) (hb2 : ∀ b ∈ b2, 1 ≤ b) (u v : Int → α) (M : Int) (C s : Int → Int → α)
    (es : List EnergyLine) :
    jobCoupling false v u b2.sum M (b1.sum + b2.sum) (fun i j => C i (colMap (b1 ++ b2) (swapOrder b1.length b2.length) j))
      (fun i j => s (colMap (b1 ++ b2) (swapOrder b1.length b2.length) i) (colMap (b1 ++ b2) (swapOrder b1.length b2.length) j)) es =
    jobCoupling false u v b1.sum M (b1.sum + b2.sum) C s es := by
  have hb : ∀ b ∈ b1 ++ b2, 1 ≤ b := fun b h => (List.mem_append.1 h).elim (hb1 b) (hb2 b)
  have hr := colMap_relabelling hb (r := swapOrder b1.length b2.length) (by
    have := swapOrder_perm b1.length b2.length
    rwa [← List.length_append] at this)
  rw [List.sum_append] at hr
  unfold jobCoupling
  rw [coupling_comm]
  apply coupling_congr
  · intro m _ _
    refine proj_relabel hr _ _ s C ?_ m
    intro p p1 p2
    rw [colMap_swap hb1 hb2 p1 p2]
    simp only [zetaA, zetaB, blockSwap, Bool.false_eq_true, if_false]
    by_cases hp : p ≤ b2.sum
    · simp only [hp, if_true]; rw [if_neg (by omega)]
    · simp only [hp, if_false]; rw [if_pos (by omega)]
  · intro m _ _
    refine proj_relabel hr _ _ s C ?_ m
    intro p p1 p2
    rw [colMap_swap hb1 hb2 p1 p2]
    simp only [zetaA, zetaB, blockSwap, Bool.false_eq_true, if_false]
    by_cases hp : p ≤ b2.sum
    · simp only [hp, if_true]; rw [if_neg (by omega)]; congr 1; omega
    · simp only [hp, if_false]; rw [if_pos (by omega)]

/-- C88 (no counterpoise): the six files are well formed and complete, and the dimer's files list the atoms of the two monomers in any
order. `b1` and `b2` are the numbers of basis functions of the atoms of the monomers. A command line that exchanges the two monomers gives
the same number. -/
theorem C88_symmetric (tos : α → β) (files : Str → Option Str) (args args' : List Str) {q q' : Args.Parser D} {par : Params.Params}
    (hq : Args.parse (fsOf files) Args.calcJ args = .ok q) (hpar : Args.prepareParameters q = .ok par)
    (hq' : Args.parse (fsOf files) Args.calcJ args' = .ok q') (hpar' : Args.prepareParameters q' = .ok (exchanged par))
    (cp : par.counterPoise = false)
    {oP o1 o2 : Output α} (hP : Stored files par.punP par.logP oP) (h1 : Stored files par.pun1 par.log1 o1)
    (h2 : Stored files par.pun2 par.log2 o2)
    {spinP spin1 spin2 : Log.Spin} (sP : par.spinP = spinP.name) (s1 : par.spin1 = spin1.name) (s2 : par.spin2 = spin2.name)
    {orbsP orbs1 orbs2 : List (Orbital α)} {n : Nat} {esP es1 es2 : List EnergyLine} {b1 b2 order : List Int}
    (bP : Orbitals oP spinP orbsP n esP) (bo1 : Orbitals o1 spin1 orbs1 b1.sum es1) (bo2 : Orbitals o2 spin2 orbs2 b2.sum es2)
    (hM : orbsP.length = (energies esP).length)
    {S : Nat → Nat → α} (hS : lastOverlap oP.log = some (n, S))
    {rowsP rows1 rows2 : List (α × α × α)} (xP : lastCoords oP.log = some rowsP) (x1 : lastCoords o1.log = some rows1)
    (x2 : lastCoords o2.log = some rows2)
    {row1 row2 : Int} (r1 : NamesOrbital ((energies es1).length, occupied es1) par.orbType1 par.orbNum1 row1)
    (r2 : NamesOrbital ((energies es2).length, occupied es2) par.orbType2 par.orbNum2 row2)
    (hr1 : 1 ≤ row1 ∧ row1 ≤ orbs1.length) (hr2 : 1 ≤ row2 ∧ row2 ≤ orbs2.length)
    (hb1 : ∀ b ∈ b1, 1 ≤ b) (hb2 : ∀ b ∈ b2, 1 ≤ b) (l1 : b1.length = rows1.length) (l2 : b2.length = rows2.length)
    (hsum : (n : Int) = b1.sum + b2.sum)
    (ne1 : rows1 ≠ []) (ne2 : rows2 ≠ []) (hre : Reordered tos order (rows1 ++ rows2) rowsP)
    (cntP : BasisCounts oP (reorderedBasis (b1 ++ b2) order)) (cnt1 : ∃ counts, BasisCounts o1 counts ∧ counts ≠ [])
    (cnt2 : ∃ counts, BasisCounts o2 counts ∧ counts ≠ []) :
    ∃ J : α, Ends (fun fuel => calcJMain D tos files fuel args) (.ok J) ∧ Ends (fun fuel => calcJMain D tos files fuel args') (.ok J) := by
  have hb : ∀ b ∈ b1 ++ b2, 1 ≤ b := fun b h => (List.mem_append.1 h).elim (hb1 b) (hb2 b)
  have bl : (b1 ++ b2).length = (rows1 ++ rows2).length := by simp [l1, l2]
  have ho : order.Perm (irange 1 (b1 ++ b2).length) := by rw [bl]; exact hre.perm
  obtain ⟨C, hC⟩ := exists_columns hb ho (coefOf orbsP)
  obtain ⟨s, hs⟩ := exists_both hb ho (overlapOf S)
  have n1pos : 1 ≤ b1.sum := QC.sum_pos hb1 (by intro e; rw [e] at l1; exact ne1 (List.eq_nil_of_length_eq_zero l1.symm))
  have n2pos : 1 ≤ b2.sum := QC.sum_pos hb2 (by intro e; rw [e] at l2; exact ne2 (List.eq_nil_of_length_eq_zero l2.symm))
  refine ⟨_, C79_aligned tos files args hq hpar cp hP h1 h2 sP s1 s2 bP bo1 bo2 (by omega) n1pos n2pos hM hS xP x1 x2
    (by rw [cp]; simp [Conforming]; omega) r1 r2 hr1 hr2 (basis := b1 ++ b2) hb (by simp [l1, l2]) (by simpa using hsum) ne1 ne2 hre cntP cnt1 cnt2 hC hs, ?_⟩
  have hu0 := swapOrder_undoes b1.length b2.length
  have hu : Undoes (b1 ++ b2).length (swapOrder b1.length b2.length) (swapOrder b2.length b1.length) := by
    rw [List.length_append]; exact hu0
  have hpos' := reorderedBasis_pos hb hu.1
  have hsum' : (reorderedBasis (b1 ++ b2) (swapOrder b1.length b2.length)).sum = (b1 ++ b2).sum := by
    have e1 := colsOf_length hb (swapOrder b1.length b2.length) (fun a ha => mem_irange.1 (hu.1.mem_iff.1 ha))
    have e2 := (colsOf_perm hb hu.1).length_eq
    rw [length_irange] at e2
    have := QC.sum_nonneg hb
    omega
  have key := C79_aligned tos files args' hq' hpar' cp hP h2 h1 sP s2 s1 bP bo2 bo1 (by omega) n2pos n1pos hM hS xP x2 x1
    (by show Conforming par.counterPoise _ _ _; rw [cp]; simp [Conforming]; omega) r2 r1 hr2 hr1
    (basis := reorderedBasis (b1 ++ b2) (swapOrder b1.length b2.length)) (order := order.map (oldNumber (swapOrder b2.length b1.length)))
    hpos' (by simp [reorderedBasis, swapOrder_length, l1, l2]; omega) (by rw [hsum']; simpa using hsum) ne2 ne1
    (Job.Reordered.renumber hre (r := swapOrder b1.length b2.length) (by rw [← bl]; exact hu) (by simp; omega) (by
      intro k a x y hk hx hy
      have hkl : k < b1.length + b2.length := by
        have := (List.getElem?_eq_some_iff.1 hk).1
        rwa [swapOrder_length] at this
      rw [swapOrder_get hkl] at hk
      have hk := Option.some.inj hk
      have : x = y := by
        by_cases hkk : k < b2.length
        · rw [if_pos hkk] at hk
          rw [List.getElem?_append_left (by omega)] at hx
          rw [List.getElem?_append_right (by omega), show (a - 1).toNat - rows1.length = k by omega, hx] at hy
          exact Option.some.inj hy
        · rw [if_neg hkk] at hk
          rw [List.getElem?_append_right (by omega)] at hx
          rw [List.getElem?_append_left (by omega), show (a - 1).toNat = k - rows2.length by omega, hx] at hy
          exact Option.some.inj hy
      subst this
      exact ⟨rfl, rfl, rfl⟩))
    (by rw [reorderedBasis_renumbered hu ho]; exact cntP) cnt2 cnt1 (Job.ColumnsAs.renumber hb hu ho hC) (Job.BothAs.renumber hb hu ho hs)
  rw [hsum, jobCoupling_exchange hb1 hb2] at key
  rw [hsum]
  exact key

theorem exists_undoes {n : Nat} {r : List Int} (h : r.Perm (irange 1 n)) : ∃ inv, Undoes n r inv := by
  have hl : r.length = n := by rw [h.length_eq, length_irange]; omega
  refine ⟨(irange 1 n).map (fun a => (r.idxOf a : Int) + 1), h, by rw [List.length_map, length_irange]; omega, ?_⟩
  intro i t ht
  rw [List.getElem?_map] at ht
  obtain ⟨a, ha, rfl⟩ := Option.map_eq_some_iff.1 ht
  obtain ⟨hi, e⟩ := List.getElem?_eq_some_iff.1 ha
  rw [getElem_irange] at e
  rw [length_irange] at hi
  have hm : a ∈ r := h.mem_iff.2 (mem_irange.2 (by omega))
  refine ⟨by omega, ?_⟩
  rw [show ((r.idxOf a : Int) + 1 - 1).toNat = r.idxOf a by omega, List.getElem?_eq_getElem (List.idxOf_lt_length_iff.2 hm), List.getElem_idxOf]
  congr 1; omega

omit [Field α] [Num α] [DecidableEq β] in
theorem Job.Reordered.self {tos : α → β} {order : List Int} {ref rows : List (α × α × α)} (h : Reordered tos order ref rows) :
    Reordered tos (irange 1 ref.length) ref ref := by
  refine ⟨List.Perm.refl _, rfl, ?_, ?_⟩
  · intro k a x y hk hx hy
    obtain ⟨hi, e⟩ := List.getElem?_eq_some_iff.1 hk
    rw [getElem_irange] at e
    subst e
    rw [show (1 + (k : Int) - 1).toNat = k by omega, hx] at hy
    cases hy
    exact ⟨rfl, rfl, rfl⟩
  · rw [List.pairwise_iff_getElem]
    intro i j hi hj hij hal
    have hl : order.length = ref.length := by rw [h.perm.length_eq, length_irange]; omega
    -- the places of atoms `i` and `j` in the file
    have place : ∀ k : Nat, (hk : k < ref.length) → ∃ (a : Nat) (ha : a < rows.length), order[a]? = some ((k : Int) + 1) ∧ Alike tos ref[k] rows[a] := by
      intro k hk
      have hm : ((k : Int) + 1) ∈ order := h.perm.mem_iff.2 (mem_irange.2 (by omega))
      obtain ⟨a, ha⟩ := List.mem_iff_getElem?.1 hm
      have hal := (List.getElem?_eq_some_iff.1 ha).1
      have hlen := h.length
      refine ⟨a, by omega, ha, ?_⟩
      exact h.alike a _ _ _ ha (List.getElem?_eq_getElem (by omega)) (by
        rw [show ((k : Int) + 1 - 1).toNat = k by omega]; exact List.getElem?_eq_getElem hk)
    obtain ⟨a, ha, ea, aa⟩ := place i hi
    obtain ⟨b, hb, eb, ab⟩ := place j hj
    have sab : Alike tos rows[a] rows[b] :=
      ⟨aa.1.symm.trans (hal.1.trans ab.1), aa.2.1.symm.trans (hal.2.1.trans ab.2.1), aa.2.2.symm.trans (hal.2.2.trans ab.2.2)⟩
    have sba : Alike tos rows[b] rows[a] := ⟨sab.1.symm, sab.2.1.symm, sab.2.2.symm⟩
    have hne : a ≠ b := by
      intro e
      subst e
      rw [ea] at eb
      have := Option.some.inj eb
      omega
    have hd := List.pairwise_iff_getElem.1 h.distinct
    rcases Nat.lt_or_ge a b with hlt | hge
    · exact hd a b ha hb hlt sab
    · exact hd b a hb ha (by omega) sba

omit [Field α] [Num α] in
theorem columnsAs_self {basis : List Int} (hb : ∀ b ∈ basis, 1 ≤ b) (f : Int → Int → α) : ColumnsAs basis (irange 1 basis.length) f f := by
  intro i q c hc
  rw [colsOf_all hb] at hc
  obtain ⟨hi, e⟩ := List.getElem?_eq_some_iff.1 hc
  rw [getElem_irange] at e
  congr 1; omega

theorem jobCoupling_exchange_cp {n : Int} {π : Int → Int} (hπ : Relabelling n π) (u v w : Int → α) (hw : ∀ p, 1 ≤ p → p ≤ n → w p = v (π p))
    (M : Int) (C s : Int → Int → α) (es : List EnergyLine) :
    jobCoupling true w (fun j => u (π j)) n M n (fun i j => C i (π j)) (fun i j => s (π i) (π j)) es = jobCoupling true u v n M n C s es := by
  unfold jobCoupling
  rw [QC.coupling_comm]
  apply QC.coupling_congr
  · intro m _ _
    refine QC.proj_relabel hπ _ _ s C (fun p _ _ => ?_) m
    simp [zetaA, zetaB]
  · intro m _ _
    refine QC.proj_relabel hπ _ _ s C (fun p p1 p2 => ?_) m
    simp [zetaA, zetaB, hw p p1 p2]

/-- C88 (counterpoise): the three calculations are of the same atoms, `basis` are their numbers of basis functions in the order of the
files of monomer 1. The files of monomer 2 and of the dimer may list them in another order. A command line that exchanges the two
monomers gives the same number. -/
theorem C88_symmetric_cp (tos : α → β) (files : Str → Option Str) (args args' : List Str) {q q' : Args.Parser D} {par : Params.Params}
    (hq : Args.parse (fsOf files) Args.calcJ args = .ok q) (hpar : Args.prepareParameters q = .ok par)
    (hq' : Args.parse (fsOf files) Args.calcJ args' = .ok q') (hpar' : Args.prepareParameters q' = .ok (exchanged par))
    (cp : par.counterPoise = true)
    {oP o1 o2 : Output α} (hP : Stored files par.punP par.logP oP) (h1 : Stored files par.pun1 par.log1 o1)
    (h2 : Stored files par.pun2 par.log2 o2)
    {spinP spin1 spin2 : Log.Spin} (sP : par.spinP = spinP.name) (s1 : par.spin1 = spin1.name) (s2 : par.spin2 = spin2.name)
    {orbsP orbs1 orbs2 : List (Orbital α)} {n : Nat} {esP es1 es2 : List EnergyLine} {basis order2 order : List Int}
    (bP : Orbitals oP spinP orbsP n esP) (bo1 : Orbitals o1 spin1 orbs1 n es1) (bo2 : Orbitals o2 spin2 orbs2 n es2)
    (hM : orbsP.length = (energies esP).length)
    {S : Nat → Nat → α} (hS : lastOverlap oP.log = some (n, S))
    {rowsP rows1 rows2 : List (α × α × α)} (xP : lastCoords oP.log = some rowsP) (x1 : lastCoords o1.log = some rows1)
    (x2 : lastCoords o2.log = some rows2)
    {row1 row2 : Int} (r1 : NamesOrbital ((energies es1).length, occupied es1) par.orbType1 par.orbNum1 row1)
    (r2 : NamesOrbital ((energies es2).length, occupied es2) par.orbType2 par.orbNum2 row2)
    (hr1 : 1 ≤ row1 ∧ row1 ≤ orbs1.length) (hr2 : 1 ≤ row2 ∧ row2 ≤ orbs2.length)
    (hb : ∀ b ∈ basis, 1 ≤ b) (hlen : basis.length = rows1.length) (hsum : (n : Int) = basis.sum)
    (ne1 : rows1 ≠ []) (hre2 : Reordered tos order2 rows1 rows2) (hre : Reordered tos order rows1 rowsP)
    (cntP : BasisCounts oP (reorderedBasis basis order)) (cnt1 : BasisCounts o1 basis)
    (cnt2 : BasisCounts o2 (reorderedBasis basis order2)) :
    ∃ J : α, Ends (fun fuel => calcJMain D tos files fuel args) (.ok J) ∧ Ends (fun fuel => calcJMain D tos files fuel args') (.ok J) := by
  have bne : basis ≠ [] := by intro e; rw [e] at hlen; exact ne1 (List.eq_nil_of_length_eq_zero hlen.symm)
  have npos : 1 ≤ basis.sum := QC.sum_pos hb bne
  have ho : order.Perm (irange 1 basis.length) := by rw [hlen]; exact hre.perm
  have ho2 : order2.Perm (irange 1 basis.length) := by rw [hlen]; exact hre2.perm
  obtain ⟨c2, hC2⟩ := exists_columns hb ho2 (coefOf orbs2)
  obtain ⟨C, hC⟩ := exists_columns hb ho (coefOf orbsP)
  obtain ⟨s, hs⟩ := exists_both hb ho (overlapOf S)
  obtain ⟨inv, hu⟩ := exists_undoes ho2
  refine ⟨_, C79_aligned_cp tos files args hq hpar cp hP h1 h2 sP s1 s2 bP bo1 bo2 (by omega) (by omega) (by omega) hM hS xP x1 x2
    (by rw [cp]; simp [Conforming]) r1 r2 hr1 hr2 hb hlen hsum ne1 hre2 hre cntP ⟨_, cnt1, bne⟩ cnt2 hC2 hC hs, ?_⟩
  have hpos' := reorderedBasis_pos hb hu.1
  have hsum' : (reorderedBasis basis order2).sum = basis.sum := by
    have e1 := colsOf_length hb order2 (fun a ha => mem_irange.1 (hu.1.mem_iff.1 ha))
    have e2 := (colsOf_perm hb hu.1).length_eq
    rw [length_irange] at e2
    omega
  have ol : order2.length = basis.length := by rw [ho2.length_eq, length_irange]; omega
  have l2 := hre2.length
  have hu' : Undoes rows1.length order2 inv := by rw [← hlen]; exact hu
  have lk : ∀ (k : Nat) a x y, order2[k]? = some a → rows2[k]? = some x → rows1[(a - 1).toNat]? = some y → Alike tos y x := hre2.alike
  have hinv : (irange 1 basis.length).map (oldNumber inv) = inv := map_oldNumber_self hu.2.1
  have hself := Job.Reordered.renumber hre2.self hu' l2 lk
  rw [← hlen, hinv] at hself
  have hord := Job.Reordered.renumber hre hu' l2 lk
  have cself := Job.ColumnsAs.renumber hb hu (List.Perm.refl _) (columnsAs_self hb (coefOf orbs1))
  rw [hinv] at cself
  have bself := reorderedBasis_renumbered hu (List.Perm.refl _)
  rw [hinv] at bself
  have binv : reorderedBasis basis (irange 1 basis.length) = basis := by
    apply List.ext_getElem
    · simp [reorderedBasis]
    · intro k h1 h2
      simp only [reorderedBasis, List.getElem_map, getElem_irange]
      rw [show (1 + (k : Int) - 1).toNat = k by omega, List.getD_eq_getElem?_getD, List.getElem?_eq_getElem h2]
      rfl
  rw [binv] at bself
  have key := C79_aligned_cp tos files args' hq' hpar' cp hP h2 h1 sP s2 s1 bP bo2 bo1 (by omega) (by omega) (by omega) hM hS xP x2 x1
    (by show Conforming par.counterPoise _ _ _; rw [cp]; simp [Conforming]) r2 r1 hr2 hr1
    (basis := reorderedBasis basis order2) (order2 := inv) (order := order.map (oldNumber inv))
    hpos' (by simp [reorderedBasis, ol, l2, hlen]) (by rw [hsum']; exact hsum)
    (by intro e; rw [e] at l2; exact ne1 (List.eq_nil_of_length_eq_zero l2.symm)) hself hord
    (by rw [reorderedBasis_renumbered hu ho]; exact cntP) ⟨_, cnt2, by
      intro e
      unfold reorderedBasis at e
      rw [List.map_eq_nil_iff] at e
      rw [e] at ol
      exact bne (List.eq_nil_of_length_eq_zero ol.symm)⟩ (by rw [bself]; exact cnt1) cself
      (Job.ColumnsAs.renumber hb hu ho hC) (Job.BothAs.renumber hb hu ho hs)
  have hrel := colMap_relabelling hb ho2
  rw [← hsum] at hrel
  have e := jobCoupling_exchange_cp hrel (coefOf orbs1 row1) (c2 row2) (coefOf orbs2 row2) (fun p p1 p2 => by
    have hl : ((colsOf basis order2).length : Int) = basis.sum := by
      rw [(colsOf_perm hb ho2).length_eq, length_irange]; omega
    have := hC2 row2 (p - 1).toNat (colMap basis order2 p) (by
      unfold colMap
      rw [List.getD_eq_getElem?_getD, List.getElem?_eq_getElem (by omega)]
      rfl)
    rw [show (((p - 1).toNat : Nat) : Int) + 1 = p by omega] at this
    exact this) orbsP.length C s esP
  rw [← e]
  exact key
end

/-! ### concrete cases -/

section
open Sample
variable {D : Type} [Args.Dbl D]

theorem sample_parse_exchanged : ∃ q : Args.Parser D, Args.parse (fsOf files) Args.calcJ
      [(lit "-p_P"), (lit "P.pun"), (lit "-p_1"), (lit "2.pun"), (lit "-p_2"), (lit "1.pun")] = .ok q ∧
    Args.prepareParameters q = .ok (exchanged (sampleParams (lit "P") (lit "1") (lit "2") (lit "HOMO") false)) := by
  have : (Args.parse (fsOf files) (Args.calcJ (D := D)) [(lit "-p_P"), (lit "P.pun"), (lit "-p_1"), (lit "2.pun"), (lit "-p_2"), (lit "1.pun")]
      >>= Args.prepareParameters) = .ok (exchanged (sampleParams (lit "P") (lit "1") (lit "2") (lit "HOMO") false)) := by kernel_rfl
  rw [Res.bind_eq_ok] at this
  exact this

/-- Exchanging the monomers of the job of `sample_job`. -/
example : Ends (fun fuel => calcJMain D (id : Rat → Rat) files fuel
      [(lit "-p_P"), (lit "P.pun"), (lit "-p_1"), (lit "2.pun"), (lit "-p_2"), (lit "1.pun")]) (.ok (-282251 / 85696)) := by
  obtain ⟨q, hq, hpar⟩ := sample_parse (D := D)
  obtain ⟨q', hq', hpar'⟩ := sample_parse_exchanged (D := D)
  obtain ⟨J, h1, h2⟩ := C88_symmetric (id : Rat → Rat) files _ _ hq hpar hq' hpar' rfl storedP stored1 stored2 (spinP := .alpha) (spin1 := .alpha)
    (spin2 := .alpha) rfl rfl rfl (b1 := [2]) (b2 := [2]) orbitalsP orbitals1 orbitals2 (by decide) (S := overlapP) rfl rfl rfl rfl (row1 := 1) (row2 := 1)
    (.inl (by decide)) (.inl (by decide)) (by decide) (by decide) (order := [2, 1]) (by decide) (by decide) (by decide) (by decide) (by decide)
    (List.cons_ne_nil _ _) (List.cons_ne_nil _ _) (reorderedP rfl rfl) countsP ⟨_, counts1, by simp⟩ ⟨_, counts2, by simp⟩
  have e := Ends.unique h1 sample_job
  rw [← e]
  exact h2

theorem sample_parse_cp_exchanged : ∃ q : Args.Parser D, Args.parse (fsOf files) Args.calcJ
      [(lit "-cp"), (lit "-p_P"), (lit "P.pun"), (lit "-p_1"), (lit "P.pun"), (lit "-p_2"), (lit "F.pun"), (lit "-orb_ty_1"), (lit "LUMO")] = .ok q ∧
    Args.prepareParameters q = .ok (exchanged (sampleParams (lit "P") (lit "F") (lit "P") (lit "LUMO") true)) := by
  have : (Args.parse (fsOf files) (Args.calcJ (D := D)) [(lit "-cp"), (lit "-p_P"), (lit "P.pun"), (lit "-p_1"), (lit "P.pun"), (lit "-p_2"), (lit "F.pun"), (lit "-orb_ty_1"), (lit "LUMO")]
      >>= Args.prepareParameters) = .ok (exchanged (sampleParams (lit "P") (lit "F") (lit "P") (lit "LUMO") true)) := by kernel_rfl
  rw [Res.bind_eq_ok] at this
  exact this

example : ∃ J : Rat, Ends (fun fuel => calcJMain D (id : Rat → Rat) files fuel
      [(lit "-cp"), (lit "-p_P"), (lit "P.pun"), (lit "-p_1"), (lit "F.pun"), (lit "-p_2"), (lit "P.pun"), (lit "-orb_ty_2"), (lit "LUMO")]) (.ok J) ∧
    Ends (fun fuel => calcJMain D (id : Rat → Rat) files fuel
      [(lit "-cp"), (lit "-p_P"), (lit "P.pun"), (lit "-p_1"), (lit "P.pun"), (lit "-p_2"), (lit "F.pun"), (lit "-orb_ty_1"), (lit "LUMO")]) (.ok J) := by
  obtain ⟨q, hq, hpar⟩ := sample_parse_cp (D := D)
  obtain ⟨q', hq', hpar'⟩ := sample_parse_cp_exchanged (D := D)
  exact C88_symmetric_cp (id : Rat → Rat) files _ _ hq hpar hq' hpar' rfl storedP storedFull storedP (spinP := .alpha) (spin1 := .alpha)
    (spin2 := .alpha) rfl rfl rfl orbitalsP orbitalsFull orbitalsP (by decide) (S := overlapP) rfl rfl rfl rfl (row1 := 2) (row2 := 3)
    (.inl (by decide)) (.inr (by decide)) (by decide) (by decide) (basis := [2, 2]) (order2 := [2, 1]) (order := [2, 1]) (by decide) (by decide) (by decide)
    (List.cons_ne_nil _ _) (reorderedP rfl rfl) (reorderedP rfl rfl) countsP countsFull countsP

end
end Verif
