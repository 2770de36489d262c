import Verif.Props.TransferLeft
import Verif.Props.Output
/-
C140, continued: when `unscramble` throws, what is left then, and calling it again.
-/
namespace Verif.QC
open Verif.Mat
variable {α β : Type}

section
variable [Zero α] [DecidableEq β]

/-- Either coordinates have as many rows, and there are matches, or they have not and `matchCol` throws. -/
theorem matchCol_cases (tos : α → β) {m m' : Mat α} {r r' c c' : Int} {f g : Int → Int → α} (h : Values m r c f) (h' : Values m' r' c' g) :
    (r' = r → ∃ l, matchCol tos m m' = .ok l) ∧ (r' ≠ r → matchCol tos m m' = .throw .invalidArgument) := by
  constructor
  · rintro rfl
    exact ⟨_, matchCol_ok tos h.isMat h'.isMat⟩
  · intro hn
    exact (C22_reject tos m m' h.shel h'.shel).1 (by rw [h.rows, h'.rows]; exact hn)

theorem newOrder_no_throw {n : Nat} {a b : List (Int × Int)} {e : Exn} : newOrder n a b ≠ .throw e := by
  unfold newOrder
  split_ifs <;> simp

theorem servedCols_no_throw {basis : List Int} {a b : List (Int × Int)} {N : Int} {f : Int → Int → α} {e : Exn} : servedCols basis a b N f ≠ .throw e := by
  unfold servedCols
  split_ifs
  · simp
  · cases h : newOrder basis.length a b with
    | throw e' => exact absurd h newOrder_no_throw
    | _ => simp

theorem servedBoth_no_throw {basis : List Int} {a b : List (Int × Int)} {M N : Int} {f : Int → Int → α} {e : Exn} : servedBoth basis a b M N f ≠ .throw e := by
  unfold servedBoth
  cases hs : servedCols basis a b N f with
  | throw e' => exact absurd hs servedCols_no_throw
  | ok g =>
    simp only [Res.ok_bind]
    split_ifs
    · simp
    · cases h : newOrder basis.length a b with
      | throw e' => exact absurd h newOrder_no_throw
      | _ => simp
  | _ => simp

theorem like_no_throw {γ δ : Type} {R : γ → δ → Prop} {x : Res γ} {y : Res δ} (h : Res.Like R x y) (hy : ∀ e, y ≠ .throw e) (e : Exn) : x ≠ .throw e := by
  rintro rfl
  cases y <;> first | exact h.elim | (cases h; exact hy _ rfl)

theorem orLeave_ok {γ : Type} (T : TransferComplex α) {r : Res γ} {c : γ} (h : r = .ok c) (next : γ → Res Unit × TransferComplex α) :
    orLeave T r next = next c := by rw [h]; rfl

theorem orLeave_throw {γ : Type} (T : TransferComplex α) {r : Res γ} {e : Exn} (h : r = .throw e) (next : γ → Res Unit × TransferComplex α) :
    orLeave T r next = (.throw e, T) := by rw [h]; rfl

/-- If the expression does not throw, the call only throws if the rest does. -/
theorem orLeave_rest {γ : Type} {T : TransferComplex α} {r : Res γ} {next : γ → Res Unit × TransferComplex α} {e : Exn} (hr : ∀ e, r ≠ .throw e)
    (h : (orLeave T r next).1 = .throw e) : ∃ c, r = .ok c ∧ (next c).1 = .throw e := by
  cases r with
  | ok c => exact ⟨c, rfl, h⟩
  | throw e' => exact absurd rfl (hr e')
  | _ => cases h

/-- C140 (when `unscramble` throws, without counterpoise): exactly if the dimer's coordinates have another number of rows than those of a monomer; then
nothing but the note that `unscramble` was called has changed. -/
theorem C140_throws (tos : α → β) (T : TransferComplex α) (hcp : T.cp = false) {x1 x2 xP : Mat α} (bP b2 : List Int) {r1 k1 r2 k2 rP kP M N K N' : Int}
    {f1 f2 fP C s : Int → Int → α} (h1 : Values x1 r1 k1 f1) (h2 : Values x2 r2 k2 f2) (hx : Values xP rP kP fP) (hP : Values T.coefP M N C)
    (hS : Values T.S K N' s) :
    (∀ e, (T.unscrambleLeft tos x1 x2 xP bP b2).1 = .throw e ↔ e = .invalidArgument ∧ (rP ≠ r1 ∨ rP ≠ r2)) ∧
    (rP ≠ r1 ∨ rP ≠ r2 → (T.unscrambleLeft tos x1 x2 xP bP b2).2 = { T with unscrambled := true }) := by
  have hn : ¬ (T.cp = true) := by rw [hcp]; decide
  unfold TransferComplex.unscrambleLeft
  dsimp only
  rw [if_neg hn]
  by_cases a : rP = r1
  · obtain ⟨l1, e1⟩ := (matchCol_cases tos h1 hx).1 a
    rw [orLeave_ok _ e1]
    by_cases b : rP = r2
    · obtain ⟨l2, e2⟩ := (matchCol_cases tos h2 hx).1 b
      rw [orLeave_ok _ e2]
      refine ⟨fun e => ⟨fun h => ?_, fun h => ?_⟩, fun h => ?_⟩
      · obtain ⟨c, -, h⟩ := orLeave_rest (like_no_throw (C121_coef_two l1 l2 bP hP) fun _ => servedCols_no_throw) h
        obtain ⟨d, -, h⟩ := orLeave_rest (like_no_throw (C121_overlap_two l1 l2 bP hS) fun _ => servedBoth_no_throw) h
        cases h
      · rcases h.2 with h | h <;> contradiction
      · rcases h with h | h <;> contradiction
    · rw [orLeave_throw _ ((matchCol_cases tos h2 hx).2 b)]
      refine ⟨fun e => ⟨fun h => ⟨(Res.throw.inj h).symm, Or.inr b⟩, fun h => by rw [h.1]⟩, fun _ => rfl⟩
  · rw [orLeave_throw _ ((matchCol_cases tos h1 hx).2 a)]
    refine ⟨fun e => ⟨fun h => ⟨(Res.throw.inj h).symm, Or.inl a⟩, fun h => by rw [h.1]⟩, fun _ => rfl⟩

/-- C140 (when `unscramble` throws, with counterpoise): exactly if the coordinates of monomer 2 have another number of rows than those of monomer 1 -
then nothing but the note has changed - or the dimer's have, and monomer 2 could be unscrambled; then monomer 2 is unscrambled and the dimer is not. -/
theorem C140_throws_cp (tos : α → β) (T : TransferComplex α) (hcp : T.cp = true) {x1 x2 xP : Mat α} (bP b2 : List Int) {r1 k1 r2 k2 rP kP N2 n2 M N K N' : Int}
    {f1 f2 fP c2 C s : Int → Int → α} (h1 : Values x1 r1 k1 f1) (h2 : Values x2 r2 k2 f2) (hx : Values xP rP kP fP) (hc : Values T.coef2 N2 n2 c2)
    (hP : Values T.coefP M N C) (hS : Values T.S K N' s) :
    (r2 ≠ r1 → T.unscrambleLeft tos x1 x2 xP bP b2 = (.throw .invalidArgument, { T with unscrambled := true })) ∧
    (r2 = r1 → ∃ l, matchCol tos x1 x2 = .ok l ∧
      (∀ d, unscrambleCoef1 l b2 T.coef2 = .ok d → rP ≠ r1 →
        T.unscrambleLeft tos x1 x2 xP bP b2 = (.throw .invalidArgument, { T with unscrambled := true, coef2 := d })) ∧
      ∀ e, (T.unscrambleLeft tos x1 x2 xP bP b2).1 = .throw e → rP ≠ r1 ∧ ∃ d, unscrambleCoef1 l b2 T.coef2 = .ok d) := by
  unfold TransferComplex.unscrambleLeft
  dsimp only
  rw [if_pos hcp]
  refine ⟨fun hr => ?_, fun hr => ?_⟩
  · rw [orLeave_throw _ ((matchCol_cases tos h1 h2).2 hr)]
  · obtain ⟨l, e1⟩ := (matchCol_cases tos h1 h2).1 hr
    refine ⟨l, e1, fun d hd hp => ?_, fun e h => ?_⟩
    · rw [orLeave_ok _ e1, orLeave_ok _ hd, orLeave_throw _ ((matchCol_cases tos h1 hx).2 hp)]
    · rw [orLeave_ok _ e1] at h
      obtain ⟨d, hd, h⟩ := orLeave_rest (like_no_throw (C121_coef_one l b2 hc) fun _ => servedCols_no_throw) h
      refine ⟨fun hp => ?_, d, hd⟩
      obtain ⟨l1, e2⟩ := (matchCol_cases tos h1 hx).1 hp
      rw [orLeave_ok _ e2] at h
      obtain ⟨c, -, h⟩ := orLeave_rest (like_no_throw (C121_coef_one l1 bP hP) fun _ => servedCols_no_throw) h
      obtain ⟨c', -, h⟩ := orLeave_rest (like_no_throw (C121_overlap_one l1 bP hS) fun _ => servedBoth_no_throw) h
      cases h

/-- The note that `unscramble` was called does not matter to `unscramble`. -/
theorem unscrambleLeft_note (tos : α → β) (T : TransferComplex α) (b : Bool) (x1 x2 xP : Mat α) (bP b2 : List Int) :
    ({ T with unscrambled := b } : TransferComplex α).unscrambleLeft tos x1 x2 xP bP b2 = T.unscrambleLeft tos x1 x2 xP bP b2 := rfl

/-- C140 (trying again, without counterpoise): after a call that threw, a call with other arguments does what it would have done at first. -/
theorem C140_retry (tos : α → β) (T : TransferComplex α) (hcp : T.cp = false) {x1 x2 xP : Mat α} (bP b2 : List Int) {r1 k1 r2 k2 rP kP M N K N' : Int}
    {f1 f2 fP C s : Int → Int → α} (h1 : Values x1 r1 k1 f1) (h2 : Values x2 r2 k2 f2) (hx : Values xP rP kP fP) (hP : Values T.coefP M N C)
    (hS : Values T.S K N' s) {e : Exn} (he : (T.unscrambleLeft tos x1 x2 xP bP b2).1 = .throw e) (y1 y2 yP : Mat α) (aP a2 : List Int) :
    (T.unscrambleLeft tos x1 x2 xP bP b2).2.unscrambleLeft tos y1 y2 yP aP a2 = T.unscrambleLeft tos y1 y2 yP aP a2 := by
  have h := C140_throws tos T hcp bP b2 h1 h2 hx hP hS
  rw [h.2 ((h.1 e).1 he).2, unscrambleLeft_note]

theorem reorderedBasis_id (basis : List Int) : reorderedBasis basis (irange 1 basis.length) = basis := by
  refine List.ext_getElem? fun i => ?_
  unfold reorderedBasis
  rw [List.getElem?_map]
  by_cases hi : i < basis.length
  · rw [List.getElem?_eq_getElem (by simp; omega), getElem_irange, List.getElem?_eq_getElem hi]
    have : ((1 : Int) + i - 1).toNat = i := by omega
    simp only [Option.map_some, Option.some.injEq, this]
    rw [List.getD_eq_getElem?_getD, List.getElem?_eq_getElem hi]
    rfl
  · rw [List.getElem?_eq_none (by simp; omega), List.getElem?_eq_none (by omega)]
    rfl

omit [Zero α] in
theorem columns_id {basis : List Int} (hb : ∀ b ∈ basis, 1 ≤ b) {m : Mat α} (h : WF m) (hs : m.shel = 1) : ColumnsReordered basis (irange 1 basis.length) m m := by
  refine ⟨h, hs, rfl, rfl, fun i q c hq => ?_⟩
  rw [colsOf_all hb] at hq
  obtain ⟨hl, rfl⟩ := List.getElem?_eq_some_iff.1 hq
  rw [getElem_irange, add_comm]

omit [Zero α] in
theorem both_id {basis : List Int} (hb : ∀ b ∈ basis, 1 ≤ b) {m : Mat α} (h : WF m) (hs : m.shel = 1) : BothReordered basis (irange 1 basis.length) m m := by
  refine ⟨h, hs, rfl, rfl, fun p q r c hp hq => ?_⟩
  rw [colsOf_all hb] at hp hq
  obtain ⟨hl, rfl⟩ := List.getElem?_eq_some_iff.1 hp
  obtain ⟨hl', rfl⟩ := List.getElem?_eq_some_iff.1 hq
  rw [getElem_irange, getElem_irange, add_comm, add_comm (q : Int)]

theorem irange_at {n : Nat} {i : Int} (h : 1 ≤ i) (h' : i ≤ n) : (irange 1 n)[(i - 1).toNat]? = some i := by
  rw [List.getElem?_eq_getElem (by simp; omega), getElem_irange]
  congr 1
  omega

end

section
variable [Zero α] [One α] [Add α] [Sub α] [Mul α] [Div α] [DecidableEq β]

/-- C140 (dimers in order): if the dimer lists the atoms of monomer 1 and then those of monomer 2, in their order, `unscramble` changes nothing; nor do
any further calls with the same arguments. -/
theorem C140_in_order (tos : α → β) (basis basis2 : List Int) (hb : ∀ b ∈ basis, 1 ≤ b) (T : TransferComplex α) (hcp : T.cp = false)
    (hP : WF T.coefP) (hPs : T.coefP.shel = 1) (hPc : T.coefP.cols = basis.sum)
    (hS : WF T.S) (hSs : T.S.shel = 1) (hSc : T.S.cols = basis.sum) (hSr : T.S.rows = basis.sum)
    (coord1 coord2 coordP : Mat α) (h1 : WF coord1) (h2 : WF coord2) (hp : WF coordP)
    (s1 : coord1.shel = 1) (s2 : coord2.shel = 1) (sp : coordP.shel = 1)
    (r1 : coordP.rows = coord1.rows) (r2 : coordP.rows = coord2.rows)
    (hn : coord1.cols + coord2.cols = basis.length) (hnP : coordP.cols = basis.length)
    (hlike1 : ∀ i, 1 ≤ i → i ≤ coord1.cols → ColPrintsLike tos coord1 coordP i i)
    (hlike2 : ∀ i, 1 ≤ i → i ≤ coord2.cols → ColPrintsLike tos coord2 coordP i (coord1.cols + i))
    (hdiff : ∀ a b, 1 ≤ a → a ≤ coordP.cols → 1 ≤ b → b ≤ coordP.cols → ColPrintsLike tos coordP coordP a b → a = b) :
    T.unscramble tos coord1 coord2 coordP basis basis2 = .ok { T with unscrambled := true } := by
  have h := (C31_transfer_complex tos basis (irange 1 basis.length) basis2 hb (List.Perm.refl _) T hcp hP hPs hPc hS hSs hSc hSr T.coefP T.S
    (columns_id hb hP hPs) (both_id hb hS hSs) coord1 coord2 coordP h1 h2 hp s1 s2 sp r1 r2 hn hnP id
    (fun i a b => ⟨a, irange_at a b⟩) hlike1 hlike2 hdiff).1
  rw [reorderedBasis_id] at h
  exact h

/-- C140 (all in order, counterpoise). -/
theorem C140_in_order_cp (tos : α → β) (basis : List Int) (hb : ∀ b ∈ basis, 1 ≤ b) (T : TransferComplex α) (hcp : T.cp = true)
    (h2 : WF T.coef2) (h2s : T.coef2.shel = 1) (h2c : T.coef2.cols = basis.sum)
    (hP : WF T.coefP) (hPs : T.coefP.shel = 1) (hPc : T.coefP.cols = basis.sum)
    (hS : WF T.S) (hSs : T.S.shel = 1) (hSc : T.S.cols = basis.sum) (hSr : T.S.rows = basis.sum)
    (coord1 coord2 coordP : Mat α) (k1 : WF coord1) (k2 : WF coord2) (kp : WF coordP)
    (s1 : coord1.shel = 1) (s2 : coord2.shel = 1) (sp : coordP.shel = 1)
    (r1 : coordP.rows = coord1.rows) (r2 : coord2.rows = coord1.rows)
    (n1 : coord1.cols = basis.length) (n2 : coord2.cols = basis.length) (nP : coordP.cols = basis.length)
    (hlike2 : ∀ i, 1 ≤ i → i ≤ coord1.cols → ColPrintsLike tos coord1 coord2 i i)
    (hlikeP : ∀ i, 1 ≤ i → i ≤ coord1.cols → ColPrintsLike tos coord1 coordP i i)
    (hdiff2 : ∀ a b, 1 ≤ a → a ≤ coord2.cols → 1 ≤ b → b ≤ coord2.cols → ColPrintsLike tos coord2 coord2 a b → a = b)
    (hdiffP : ∀ a b, 1 ≤ a → a ≤ coordP.cols → 1 ≤ b → b ≤ coordP.cols → ColPrintsLike tos coordP coordP a b → a = b) :
    T.unscramble tos coord1 coord2 coordP basis basis = .ok { T with unscrambled := true } := by
  have h := (C31_transfer_complex_cp tos basis (irange 1 basis.length) (irange 1 basis.length) hb (List.Perm.refl _) (List.Perm.refl _) T hcp
    h2 h2s h2c hP hPs hPc hS hSs hSc hSr T.coef2 T.coefP T.S (columns_id hb h2 h2s) (columns_id hb hP hPs) (both_id hb hS hSs)
    coord1 coord2 coordP k1 k2 kp s1 s2 sp r1 r2 n1 n2 nP id id (fun i a b => ⟨a, irange_at a b⟩) (fun i a b => ⟨a, irange_at a b⟩)
    hlike2 hlikeP hdiff2 hdiffP).1
  rw [reorderedBasis_id] at h
  exact h

end
end Verif.QC

namespace Verif
open Strings Readers QC
variable {α β : Type} [Field α] [Num α] [DecidableEq β] {D : Type} [Args.Dbl D]

/-- C140 (calc_J): a run that ends normally has written the warning exactly if the populations were missing in one of the three log files. -/
theorem C140_run (tos : α → β) (files : Str → Option Str) (fuel : Nat) (args : List Str) {par : Params.Params} {r : Report α}
    (h : calcJRun D tos files fuel args = .ok (par, r)) :
    ∃ (lrP lr1 lr2 : LogData α) (w : Bool), readLog files fuel par.logP = .ok lrP ∧ readLog files fuel par.log1 = .ok lr1 ∧
      readLog files fuel par.log2 = .ok lr2 ∧ calcJWarns (α := α) D tos files fuel args = .ok w ∧ (w = true ↔ ¬ HavePopulations lrP lr1 lr2) := by
  unfold calcJRun at h
  unfold calcJWarns
  rw [Args.prepareParser_ok] at h ⊢
  simp only [Res.ok_bind] at h ⊢
  obtain ⟨q, hq, h⟩ := Res.bind_eq_ok.1 h
  obtain ⟨par', hp, h⟩ := Res.bind_eq_ok.1 h
  obtain ⟨rd, hr, h⟩ := Res.bind_eq_ok.1 h
  obtain ⟨⟨prP, pr1, pr2⟩, lrP, lr1, lr2⟩ := rd
  simp only at h
  obtain ⟨r', hc, h⟩ := Res.bind_eq_ok.1 h
  cases h
  rw [couplingReport_split] at hc
  obtain ⟨T, hT, hc⟩ := Res.bind_eq_ok.1 hc
  rw [hq]
  simp only [Res.ok_bind, hp, hr, hT]
  unfold readFiles at hr
  obtain ⟨_, _, hr⟩ := Res.bind_eq_ok.1 hr
  obtain ⟨_, _, hr⟩ := Res.bind_eq_ok.1 hr
  obtain ⟨_, _, hr⟩ := Res.bind_eq_ok.1 hr
  obtain ⟨_, g1, hr⟩ := Res.bind_eq_ok.1 hr
  obtain ⟨_, g2, hr⟩ := Res.bind_eq_ok.1 hr
  obtain ⟨_, g3, hr⟩ := Res.bind_eq_ok.1 hr
  cases hr
  refine ⟨_, _, _, _, g1, g2, g3, rfl, ?_⟩
  unfold complexOf at hT
  iterate 15 obtain ⟨_, _, hT⟩ := Res.bind_eq_ok.1 hT
  obtain ⟨T0, hN, hT⟩ := Res.bind_eq_ok.1 hT
  have e0 : T0.unscrambled = false := by
    unfold TransferComplex.new at hN
    simp only at hN
    split_ifs at hN <;> first | (rw [← Res.ok.inj hN]) | cases hN
  unfold HavePopulations TransferComplex.warns
  by_cases hb : lr1.getBasisFuncCount.length ≠ 0 ∧ lr2.getBasisFuncCount.length ≠ 0 ∧ lrP.getBasisFuncCount.length ≠ 0
  · rw [if_pos hb, C140_agrees] at hT
    obtain ⟨_, _, hT⟩ := Res.bind_eq_ok.1 hT
    have eT : T.unscrambled = true := by rw [← Res.ok.inj hT]; exact (unscrambleLeft_kin ..).2
    simp only [eT]
    simp only [ne_eq, List.length_eq_zero_iff] at hb
    simp [hb.1, hb.2.1, hb.2.2]
  · rw [if_neg hb] at hT
    rw [← Res.ok.inj hT, e0]
    simp only [ne_eq, List.length_eq_zero_iff] at hb
    simp only [beq_self_eq_true, true_iff]
    exact hb

end Verif
