import Verif.Spec.Unscramble
import Verif.Props.Schedule
import Verif.Props.Blocks
import Verif.Props.QCReorder
/-
C121: unscrambling, for every list of matches and every list of block sizes.
-/
namespace Verif

theorem Res.Like.bind {β γ β' γ' : Type} {R : β → γ → Prop} {R' : β' → γ' → Prop} {x : Res β} {s : Res γ} {f : β → Res β'} {g : γ → Res γ'}
    (h : Res.Like R x s) (hf : ∀ b c, R b c → Res.Like R' (f b) (g c)) : Res.Like R' (x >>= f) (s >>= g) := by
  cases x <;> cases s <;> first | exact absurd h id | exact h | exact hf _ _ h

theorem Res.Like.of_eq {β γ : Type} {R : β → γ → Prop} {x : Res β} {s : Res γ} {b : β} {c : γ} (h1 : x = .ok b) (h2 : s = .ok c) (h : R b c) :
    Res.Like R x s := by
  subst h1 h2
  exact h

theorem Res.Like.eq {β : Type} {x s : Res β} (h : Res.Like Eq x s) : x = s := by
  cases x <;> cases s <;> first | exact absurd h id | exact congrArg _ h | rfl

namespace QC
open Mat
variable {α : Type}

/-! ### the exchanges -/

theorem foundAt_append (made : List (Int × Int)) (c : Int × Int) (t : Int) :
    foundAt (made ++ [c]) t = if foundAt made t = c.1 then c.2 else foundAt made t := by
  unfold foundAt
  rw [List.foldl_append]
  rfl

/-- The requests as they are after the exchanges made. -/
private def nowAsked (made L : List (Int × Int)) : List (Int × Int) := L.map (fun q => (q.1, foundAt made q.2))

private theorem nowAsked_step (made : List (Int × Int)) (c : Int × Int) (L : List (Int × Int)) :
    (nowAsked made L).map (repl c.1 c.2) = nowAsked (made ++ [c]) L := by
  unfold nowAsked
  rw [List.map_map]
  apply List.map_congr_left
  intro q _
  simp [repl, foundAt_append]

private theorem sweep_eq {w i : Int} {l l' : List (Int × Int)} (h : sweep w i l = .ok l') : l' = l.map (repl w i) := by
  by_cases hc : i ≠ w ∨ ∀ p ∈ l, p.2 ≠ w
  · rw [sweep_ok hc] at h
    exact (Res.ok.inj h).symm
  · have h1 : i = w := Classical.byContradiction fun h => hc (.inl h)
    have h2 : ∃ p ∈ l, p.2 = w := Classical.byContradiction fun h => hc (.inr fun p hp e => h ⟨p, hp, e⟩)
    rw [h1, sweep_diverge h2] at h
    cases h

private theorem repl_self (w : Int) (l : List (Int × Int)) : l.map (repl w w) = l := by
  conv => rhs; rw [← List.map_id l]
  apply List.map_congr_left
  intro p _
  unfold repl
  split
  · next h => simp [← h]
  · rfl

private theorem tail_eq (g : Int × Int → Bool) (hg : ∀ p, p.1 ≠ p.2 → g p = true) : ∀ (L made out : List (Int × Int)),
    refreshTail g (nowAsked made L) = .ok out → out = exchanges made L
  | [], made, out, h => (Res.ok.inj h).symm
  | q :: L, made, out, h => by
    rw [show nowAsked made (q :: L) = (q.1, foundAt made q.2) :: nowAsked made L from rfl, refreshTail_cons] at h
    obtain ⟨A, h1, h⟩ := Res.bind_eq_ok.1 h
    obtain ⟨A', h2, h⟩ := Res.bind_eq_ok.1 h
    have hA : A = nowAsked (made ++ [(q.1, foundAt made q.2)]) L := by
      rw [← nowAsked_step]
      by_cases hq : g (q.1, foundAt made q.2) = true
      · rw [if_pos hq] at h1
        exact sweep_eq h1
      · rw [if_neg hq] at h1
        have : q.1 = foundAt made q.2 := Classical.byContradiction fun h => hq (hg _ h)
        simp only [← this, repl_self]
        exact (Res.ok.inj h1).symm
    rw [hA] at h2
    have := tail_eq g hg L _ _ h2
    cases h
    rw [this]
    rfl

private theorem first_eq (g : Int × Int → Bool) (hg : ∀ p, p.1 ≠ p.2 → g p = true) : ∀ (B A made outB A' outA : List (Int × Int)),
    refreshB (nowAsked made B) (nowAsked made A) = .ok (outB, A') → refreshTail g A' = .ok outA → outB ++ outA = exchanges made (B ++ A)
  | [], A, made, outB, A', outA, h, h' => by
    cases h
    exact tail_eq g hg A made outA h'
  | q :: B, A, made, outB, A', outA, h, h' => by
    rw [show nowAsked made (q :: B) = (q.1, foundAt made q.2) :: nowAsked made B from rfl, refreshB_cons] at h
    obtain ⟨B1, h1, h⟩ := Res.bind_eq_ok.1 h
    obtain ⟨A1, h2, h⟩ := Res.bind_eq_ok.1 h
    obtain ⟨⟨B2, A2⟩, h3, h⟩ := Res.bind_eq_ok.1 h
    dsimp only at h
    cases h
    rw [sweep_eq h1, sweep_eq h2, nowAsked_step, nowAsked_step] at h3
    have := first_eq g hg B A _ _ _ _ h3 h'
    rw [List.cons_append, this]
    rfl

private theorem nowAsked_nil (L : List (Int × Int)) : nowAsked [] L = L := by simp [nowAsked, foundAt]

theorem order_one_eq {L out : List (Int × Int)} (h : refreshSwapOrder1 L = .ok out) : out = exchanges [] L := by
  apply tail_eq (fun _ => true) (fun _ _ => rfl)
  rw [nowAsked_nil]
  exact h

theorem order_two_eq {B A outB outA : List (Int × Int)} (h : refreshSwapOrder2 B A = .ok (outB, outA)) : outB ++ outA = exchanges [] (B ++ A) := by
  unfold refreshSwapOrder2 at h
  obtain ⟨⟨B2, A2⟩, h1, h⟩ := Res.bind_eq_ok.1 h
  dsimp only at h
  obtain ⟨A3, h2, h⟩ := Res.bind_eq_ok.1 h
  cases h
  apply first_eq (fun p => p.1 ≠ p.2) (fun p hp => by simpa using hp) B A []
  · rw [nowAsked_nil, nowAsked_nil]; exact h1
  · exact h2

/-! ### making them -/

private theorem swap_bad {β : Type} {l : List β} {c : Int × Int} (hne : c.1 ≠ c.2) (h : ¬ ((1 ≤ c.1 ∧ c.1 ≤ l.length) ∧ (1 ≤ c.2 ∧ c.2 ≤ l.length))) :
    swapEntry l c = .ub := by
  have key : ∀ x : Int, ¬ (1 ≤ x ∧ x ≤ l.length) → listGet l (x - 1) = .ub := by
    intro x hx
    unfold listGet
    split
    · rfl
    · rw [List.getElem?_eq_none (by omega)]
  unfold swapEntry
  rw [if_pos hne]
  by_cases h1 : 1 ≤ c.1 ∧ c.1 ≤ l.length
  · have h2 : ¬ (1 ≤ c.2 ∧ c.2 ≤ l.length) := fun h2 => h ⟨h1, h2⟩
    rw [key _ h2]
    unfold listGet
    rw [if_neg (by omega), List.getElem?_eq_getElem (by omega)]
    rfl
  · rw [key _ h1]
    rfl

private theorem update_cons {β : Type} (c : Int × Int) (cs : List (Int × Int)) (l : List β) :
    updateSwapLists1 (c :: cs) l = (swapEntry l c >>= updateSwapLists1 cs) := rfl

theorem update_out {β : Type} : ∀ (cs : List (Int × Int)) (l : List β), Outside l.length cs → updateSwapLists1 cs l = .ub
  | [], l, h => by obtain ⟨c, hc, -⟩ := h; cases hc
  | c :: cs, l, h => by
    rw [update_cons]
    by_cases hc : c.1 ≠ c.2 ∧ ¬ ((1 ≤ c.1 ∧ c.1 ≤ l.length) ∧ (1 ≤ c.2 ∧ c.2 ≤ l.length))
    · rw [swap_bad hc.1 hc.2]
      rfl
    · have hrest : Outside l.length cs := by
        obtain ⟨d, hd, h1⟩ := h
        rcases List.mem_cons.1 hd with rfl | hd
        · exact absurd h1 hc
        · exact ⟨d, hd, h1⟩
      by_cases he : c.1 = c.2
      · rw [show swapEntry l c = .ok l by unfold swapEntry; rw [if_neg (by simpa using he)]]
        exact update_out cs l hrest
      · have h1 : (1 ≤ c.1 ∧ c.1 ≤ l.length) ∧ (1 ≤ c.2 ∧ c.2 ≤ l.length) := Classical.byContradiction fun h => hc ⟨he, h⟩
        obtain ⟨y, e, hl, -, -⟩ := swapEntry_ok h1.1 h1.2
        rw [e, Res.ok_bind]
        exact update_out cs y (hl ▸ hrest)

theorem update_in {β : Type} : ∀ (cs : List (Int × Int)) (l : List β), ¬ Outside l.length cs →
    ∃ l', updateSwapLists1 cs l = .ok l' ∧ l'.Perm l ∧ ∀ k : Int, 1 ≤ k → k ≤ l.length →
      (1 ≤ blockAt cs k ∧ blockAt cs k ≤ l.length) ∧ l'[(k - 1).toNat]? = l[(blockAt cs k - 1).toNat]?
  | [], l, _ => ⟨l, rfl, .refl _, fun k h1 h2 => ⟨⟨h1, h2⟩, rfl⟩⟩
  | c :: cs, l, h => by
    rw [update_cons]
    have hrest : ¬ Outside l.length cs := fun ⟨d, hd, h1⟩ => h ⟨d, List.mem_cons_of_mem _ hd, h1⟩
    by_cases he : c.1 = c.2
    · rw [show swapEntry l c = .ok l by unfold swapEntry; rw [if_neg (by simpa using he)], Res.ok_bind]
      obtain ⟨l', e, hp, hk⟩ := update_in cs l hrest
      refine ⟨l', e, hp, fun k h1 h2 => ?_⟩
      have e2 : blockAt (c :: cs) k = blockAt cs k := by
        show (if blockAt cs k = c.1 then c.2 else if blockAt cs k = c.2 then c.1 else blockAt cs k) = _
        split <;> [omega; split <;> omega]
      rw [e2]
      exact hk k h1 h2
    · have h1 : (1 ≤ c.1 ∧ c.1 ≤ l.length) ∧ (1 ≤ c.2 ∧ c.2 ≤ l.length) :=
        Classical.byContradiction fun h' => h ⟨c, List.mem_cons_self, he, h'⟩
      obtain ⟨y, e, hl, hp, hy⟩ := swapEntry_ok h1.1 h1.2
      rw [e, Res.ok_bind]
      obtain ⟨l', e', hp', hk⟩ := update_in cs y (hl ▸ hrest)
      refine ⟨l', e', hp'.trans hp, fun k a1 a2 => ?_⟩
      have e2 : blockAt (c :: cs) k = if blockAt cs k = c.1 then c.2 else if blockAt cs k = c.2 then c.1 else blockAt cs k := rfl
      obtain ⟨b1, b2⟩ := hk k a1 (by omega)
      rw [hl] at b1
      rw [b2, hy _ b1.1, e2]
      refine ⟨?_, ?_⟩
      · split
        · exact h1.2
        · split
          · exact h1.1
          · exact b1
      · split
        · rfl
        · split <;> rfl

/-! ### the blocks in their new order -/

/-- The size of block `t`. -/
private def size (basis : List Int) (t : Int) : Int := basis.getD (t - 1).toNat 0

private theorem atomCols_at {basis : List Int} (hb : ∀ b ∈ basis, 1 ≤ b) {t : Int} (h : 1 ≤ t ∧ t ≤ basis.length) :
    ((atomCols basis t).length : Int) = size basis t ∧ ∀ (j : Nat) c, (atomCols basis t)[j]? = some c → c = (basis.take (t - 1).toNat).sum + (j + 1) := by
  refine ⟨atomCols_length' hb h, fun j c hc => ?_⟩
  unfold atomCols at hc
  obtain ⟨h1, h2⟩ := List.getElem?_eq_some_iff.1 hc
  rw [getElem_irange] at h2
  omega

private theorem colsOf_cons (basis : List Int) (t : Int) (y : List Int) : colsOf basis (t :: y) = atomCols basis t ++ colsOf basis y := rfl

private theorem cols_some {basis : List Int} (hb : ∀ b ∈ basis, 1 ≤ b) : ∀ (y : List Int), (∀ t ∈ y, 1 ≤ t ∧ t ≤ basis.length) → ∀ (q : Nat) (c : Int),
    (colsOf basis y)[q]? = some c → ∃ (k : Nat) (t j : Int), y[k]? = some t ∧ 1 ≤ j ∧ j ≤ size basis t ∧
      (q : Int) + 1 = ((y.take k).map (size basis)).sum + j ∧ c = (basis.take (t - 1).toNat).sum + j
  | [], _, q, c, h => by simp [colsOf] at h
  | t :: y, hy, q, c, h => by
    rw [colsOf_cons] at h
    obtain ⟨h1, h2⟩ := atomCols_at hb (hy t (by simp))
    by_cases hq : q < (atomCols basis t).length
    · rw [List.getElem?_append_left hq] at h
      exact ⟨0, t, q + 1, rfl, by omega, by omega, by simp, h2 q c h⟩
    · rw [List.getElem?_append_right (by omega)] at h
      obtain ⟨k, u, j, a1, a2, a3, a4, a5⟩ := cols_some hb y (fun t ht => hy t (by simp [ht])) _ c h
      refine ⟨k + 1, u, j, a1, a2, a3, ?_, a5⟩
      rw [List.take_succ_cons, List.map_cons, List.sum_cons]
      omega

private theorem cols_none {basis : List Int} (hb : ∀ b ∈ basis, 1 ≤ b) : ∀ (y : List Int), (∀ t ∈ y, 1 ≤ t ∧ t ≤ basis.length) →
    ((colsOf basis y).length : Int) = (y.map (size basis)).sum
  | [], _ => rfl
  | t :: y, hy => by
    obtain ⟨h1, -⟩ := atomCols_at hb (hy t (by simp))
    have := cols_none hb y (fun t ht => hy t (by simp [ht]))
    rw [colsOf_cons, List.length_append, List.map_cons, List.sum_cons]
    omega

/-- Blocks of these sizes after the exchanges. -/
private theorem rearranged {β : Type} {basis : List Int} {cs : List (Int × Int)} (hn : ¬ Outside basis.length cs) {l : List β}
    (hl : l.length = basis.length) {width : β → Int} (hw : ∀ (k : Nat) b w, l[k]? = some b → basis[k]? = some w → width b = w) :
    ∃ l', updateSwapLists1 cs l = .ok l' ∧ (∀ b ∈ l', b ∈ l) ∧ l'.map width = ((irange 1 basis.length).map (blockAt cs)).map (size basis) ∧
      (((irange 1 basis.length).map (blockAt cs)).map (size basis)).sum = basis.sum ∧
      (∀ t ∈ (irange 1 basis.length).map (blockAt cs), 1 ≤ t ∧ t ≤ basis.length) ∧
      ∀ (k : Nat) t, ((irange 1 basis.length).map (blockAt cs))[k]? = some t → l'[k]? = l[(t - 1).toNat]? := by
  obtain ⟨l', e, hp, hk⟩ := update_in cs l (hl ▸ hn)
  have hlen := hp.length_eq
  have hmap : l.map width = basis := by
    apply List.ext_getElem?
    intro k
    rw [List.getElem?_map]
    by_cases h : k < basis.length
    · have h1 := List.getElem?_eq_getElem h
      have h2 := List.getElem?_eq_getElem (show k < l.length by omega)
      rw [h2, h1, Option.map_some, hw k _ _ h2 h1]
    · rw [List.getElem?_eq_none (by omega), List.getElem?_eq_none (by omega)]
      rfl
  have hin : ∀ t ∈ (irange 1 basis.length).map (blockAt cs), 1 ≤ t ∧ t ≤ basis.length := by
    intro t ht
    obtain ⟨k, h1, rfl⟩ := List.mem_map.1 ht
    have h1 := mem_irange.1 h1
    rw [← hl]
    exact (hk k h1.1 (by omega)).1
  have hat : ∀ (k : Nat) t, ((irange 1 basis.length).map (blockAt cs))[k]? = some t → l'[k]? = l[(t - 1).toNat]? := by
    intro k t h
    rw [List.getElem?_map] at h
    obtain ⟨x, hx, rfl⟩ := Option.map_eq_some_iff.1 h
    obtain ⟨h1, h2⟩ := List.getElem?_eq_some_iff.1 hx
    rw [getElem_irange] at h2
    have h3 : k < basis.length := by simpa using h1
    have := (hk x (by omega) (by omega)).2
    rw [show (x - 1).toNat = k by omega] at this
    exact this
  have hww : l'.map width = ((irange 1 basis.length).map (blockAt cs)).map (size basis) := by
    apply List.ext_getElem?
    intro k
    rw [List.getElem?_map, List.getElem?_map]
    cases ht : ((irange 1 basis.length).map (blockAt cs))[k]? with
    | none =>
      have := List.getElem?_eq_none_iff.1 ht
      rw [List.getElem?_eq_none (by simp at this; omega)]
      rfl
    | some t =>
      rw [hat k t ht]
      have h1 := hin t (List.mem_of_getElem? ht)
      have h2 := List.getElem?_eq_getElem (show (t - 1).toNat < basis.length by omega)
      have h3 := List.getElem?_eq_getElem (show (t - 1).toNat < l.length by omega)
      rw [h3, Option.map_some, Option.map_some, hw _ _ _ h3 h2]
      simp only [size, List.getD_eq_getElem?_getD, h2, Option.getD_some]
  refine ⟨l', e, fun b hb => hp.mem_iff.1 hb, hww, ?_, hin, hat⟩
  rw [← hww, (hp.map width).sum_eq, hmap]

/-- The columns. -/
private theorem merged_cols [Zero α] {basis : List Int} (hb : ∀ b ∈ basis, 1 ≤ b) {m : Mat α} {M N : Int} {f : Int → Int → α} (hm : Values m M N f)
    (hs : basis.sum ≤ N) {cs : List (Int × Int)} {l : List (Mat α)} (hl : splitMatrixIntoList basis m "Columns".toList = .ok l) :
    l.length = basis.length ∧ (¬ Outside basis.length cs → ∃ l' m', updateSwapLists1 cs l = .ok l' ∧
      mergeListOfMatrices l' m.rows m.cols "Columns".toList = .ok m' ∧
      Values m' M N (colsTo basis ((irange 1 basis.length).map (blockAt cs)) f)) := by
  obtain ⟨x, e, h1, h2⟩ := C116_split_cols hm.wf basis hb (by rw [hm.cols]; exact hs)
  rw [hl] at e
  cases e
  refine ⟨h1, fun hn => ?_⟩
  obtain ⟨l', e1, hmem, hwid, hsum, hin, hat⟩ := rearranged hn h1 (width := (·.cols)) (fun k b w hk hw => (h2 k b w hk hw).2.2.1)
  have hwf : ∀ b ∈ l', WF b ∧ b.rows = m.rows := by
    intro b hb'
    obtain ⟨k, hk⟩ := List.mem_iff_getElem?.1 (hmem b hb')
    have hkl := (List.getElem?_eq_some_iff.1 hk).1
    have := h2 k b _ hk (List.getElem?_eq_getElem (by omega))
    exact ⟨this.1, this.2.1⟩
  have hM := hm.wf.rows1
  have hN := hm.wf.cols1
  obtain ⟨m', e2, g1, g2, g3, g4, g5, g6⟩ := C116_merge_cols hM hN l' (fun b hb => (hwf b hb).1) (fun b hb => by rw [(hwf b hb).2])
    (by rw [hwid, hsum, hm.cols]; exact hs)
  refine ⟨l', m', e1, e2, ⟨g1, by rw [g2, hm.rows], by rw [g3, hm.cols], g4, fun i j a1 a2 a3 a4 => ?_⟩⟩
  have er := hm.rows
  have ec := hm.cols
  unfold colsTo
  split
  · next c hc =>
    obtain ⟨k, t, d, b1, b2, b3, b4, b5⟩ := cols_some hb _ hin _ _ hc
    have ht := hin t (List.mem_of_getElem? b1)
    have h3 := hat k t b1
    have h4 := List.getElem?_eq_getElem (show (t - 1).toNat < l.length by omega)
    have h5 := List.getElem?_eq_getElem (show (t - 1).toNat < basis.length by omega)
    rw [h4] at h3
    obtain ⟨w1, w2, w3, w4, w5⟩ := h2 _ _ _ h4 h5
    have hsz : size basis t = basis[(t - 1).toNat] := by simp only [size, List.getD_eq_getElem?_getD, h5, Option.getD_some]
    have h6 := g5 k _ h3 i d a1 (by omega) b2 (by omega)
    have h7 : ((l'.take k).map (·.cols)).sum + d = j := by
      rw [List.map_take, hwid, ← List.map_take]
      omega
    rw [h7, if_pos (by omega), w5 i d b2 (by omega), ← b5] at h6
    rw [h6]
    have h8 : c ≤ basis.sum := by
      have : (basis.take ((t - 1).toNat + 1)).sum ≤ basis.sum := by
        have e := congrArg List.sum (List.take_append_drop ((t - 1).toNat + 1) basis)
        rw [List.sum_append] at e
        have : 0 ≤ (basis.drop ((t - 1).toNat + 1)).sum := sum_nonneg (fun x hx => by have := hb x (List.mem_of_mem_drop hx); omega)
        omega
      rw [sum_take_succ basis _ (by omega)] at this
      omega
    have h9 : 0 ≤ (basis.take (t - 1).toNat).sum := sum_nonneg (fun x hx => by have := hb x (List.mem_of_mem_take hx); omega)
    exact hm.val i c a1 a2 (by omega) (by omega)
  · next hc =>
    have h3 := List.getElem?_eq_none_iff.1 hc
    have h4 := cols_none hb _ hin
    exact g6 i j a1 (by omega) (by rw [hwid]; omega) (by omega)

/-- The rows. -/
private theorem merged_rows [Zero α] {basis : List Int} (hb : ∀ b ∈ basis, 1 ≤ b) {m : Mat α} {M N : Int} {f : Int → Int → α} (hm : Values m M N f)
    (hs : basis.sum ≤ M) {cs : List (Int × Int)} {l : List (Mat α)} (hl : splitMatrixIntoList basis m "Rows".toList = .ok l) :
    l.length = basis.length ∧ (¬ Outside basis.length cs → ∃ l' m', updateSwapLists1 cs l = .ok l' ∧
      mergeListOfMatrices l' m.rows m.cols "Rows".toList = .ok m' ∧
      Values m' M N (rowsTo basis ((irange 1 basis.length).map (blockAt cs)) f)) := by
  obtain ⟨x, e, h1, h2⟩ := C116_split_rows hm.wf basis hb (by rw [hm.rows]; exact hs)
  rw [hl] at e
  cases e
  refine ⟨h1, fun hn => ?_⟩
  obtain ⟨l', e1, hmem, hwid, hsum, hin, hat⟩ := rearranged hn h1 (width := (·.rows)) (fun k b w hk hw => (h2 k b w hk hw).2.1)
  have hwf : ∀ b ∈ l', WF b ∧ b.cols = m.cols := by
    intro b hb'
    obtain ⟨k, hk⟩ := List.mem_iff_getElem?.1 (hmem b hb')
    have hkl := (List.getElem?_eq_some_iff.1 hk).1
    have := h2 k b _ hk (List.getElem?_eq_getElem (by omega))
    exact ⟨this.1, this.2.2.1⟩
  have hM := hm.wf.rows1
  have hN := hm.wf.cols1
  obtain ⟨m', e2, g1, g2, g3, g4, g5, g6⟩ := C116_merge_rows hM hN l' (fun b hb => (hwf b hb).1) (fun b hb => by rw [(hwf b hb).2])
    (by rw [hwid, hsum, hm.rows]; exact hs)
  refine ⟨l', m', e1, e2, ⟨g1, by rw [g2, hm.rows], by rw [g3, hm.cols], g4, fun i j a1 a2 a3 a4 => ?_⟩⟩
  have er := hm.rows
  have ec := hm.cols
  unfold rowsTo colsTo
  split
  · next c hc =>
    obtain ⟨k, t, d, b1, b2, b3, b4, b5⟩ := cols_some hb _ hin _ _ hc
    have ht := hin t (List.mem_of_getElem? b1)
    have h3 := hat k t b1
    have h4 := List.getElem?_eq_getElem (show (t - 1).toNat < l.length by omega)
    have h5 := List.getElem?_eq_getElem (show (t - 1).toNat < basis.length by omega)
    rw [h4] at h3
    obtain ⟨w1, w2, w3, w4, w5⟩ := h2 _ _ _ h4 h5
    have hsz : size basis t = basis[(t - 1).toNat] := by simp only [size, List.getD_eq_getElem?_getD, h5, Option.getD_some]
    have h6 := g5 k _ h3 j d a3 (by omega) b2 (by omega)
    have h7 : ((l'.take k).map (·.rows)).sum + d = i := by
      rw [List.map_take, hwid, ← List.map_take]
      omega
    rw [h7, if_pos (by omega), w5 j d b2 (by omega), ← b5] at h6
    rw [h6]
    have h8 : c ≤ basis.sum := by
      have : (basis.take ((t - 1).toNat + 1)).sum ≤ basis.sum := by
        have e := congrArg List.sum (List.take_append_drop ((t - 1).toNat + 1) basis)
        rw [List.sum_append] at e
        have : 0 ≤ (basis.drop ((t - 1).toNat + 1)).sum := sum_nonneg (fun x hx => by have := hb x (List.mem_of_mem_drop hx); omega)
        omega
      rw [sum_take_succ basis _ (by omega)] at this
      omega
    have h9 : 0 ≤ (basis.take (t - 1).toNat).sum := sum_nonneg (fun x hx => by have := hb x (List.mem_of_mem_take hx); omega)
    exact hm.val c j (by omega) (by omega) a3 a4
  · next hc =>
    have h3 := List.getElem?_eq_none_iff.1 hc
    have h4 := cols_none hb _ hin
    exact g6 j i a3 (by omega) (by rw [hwid]; omega) (by omega)

/-! ### the claims -/

private theorem update_length {β : Type} {cs : List (Int × Int)} {l : List β} {n : Nat} (hl : l.length = n) (h : Outside n cs) :
    updateSwapLists1 cs l = .ub := update_out cs l (hl ▸ h)

/-- One matrix, once the exchanges are known. -/
private theorem served_cols [Zero α] {basis : List Int} (hb : ∀ b ∈ basis, 1 ≤ b) {m : Mat α} {M N : Int} {f : Int → Int → α} (hm : Values m M N f)
    {first second : List (Int × Int)} {order : Res (List (Int × Int))} (ho1 : Clash first second → order = .diverge)
    (ho2 : ¬ Clash first second → order = .ok (exchanges [] (first ++ second))) {run : Res (Mat α)}
    (hrun : run = (do
      let l ← splitMatrixIntoList basis m "Columns".toList
      let cs ← order
      let l ← updateSwapLists1 cs l
      mergeListOfMatrices l m.rows m.cols "Columns".toList)) :
    Res.Like (fun m' g => Values m' M N g) run (servedCols basis first second N f) := by
  rw [hrun]
  unfold servedCols newOrder
  by_cases hs : N < basis.sum
  · rw [if_pos (.inr hs), (C28_rejects hm.wf basis).1 (.inr (by rw [hm.cols]; omega))]
    exact rfl
  · obtain ⟨l, hl, -⟩ := C116_split_cols hm.wf basis hb (by rw [hm.cols]; omega)
    rw [if_neg (fun h => h.elim (fun ⟨b, h1, h2⟩ => by have := hb b h1; omega) hs), hl, Res.ok_bind]
    by_cases hc : Clash first second
    · rw [ho1 hc, if_pos hc]
      exact trivial
    · obtain ⟨h1, h2⟩ := merged_cols hb hm (by omega) (cs := exchanges [] (first ++ second)) hl
      rw [ho2 hc, if_neg hc, Res.ok_bind]
      by_cases hout : Outside basis.length (exchanges [] (first ++ second))
      · rw [if_pos hout, update_length h1 hout]
        exact trivial
      · obtain ⟨l', m', e1, e2, h3⟩ := h2 hout
        rw [if_neg hout, e1, Res.ok_bind, e2]
        exact h3

private theorem served_rows [Zero α] {basis : List Int} (hb : ∀ b ∈ basis, 1 ≤ b) {m : Mat α} {M N : Int} {f : Int → Int → α} (hm : Values m M N f)
    {first second : List (Int × Int)} {order : Res (List (Int × Int))} (ho1 : Clash first second → order = .diverge)
    (ho2 : ¬ Clash first second → order = .ok (exchanges [] (first ++ second))) {run : Res (Mat α)}
    (hrun : run = (do
      let l ← splitMatrixIntoList basis m "Rows".toList
      let cs ← order
      let l ← updateSwapLists1 cs l
      mergeListOfMatrices l m.rows m.cols "Rows".toList)) :
    Res.Like (fun m' g => Values m' M N g) run (if M < basis.sum then .exit 1 else do
      let order ← newOrder basis.length first second
      .ok (rowsTo basis order f)) := by
  rw [hrun]
  unfold newOrder
  by_cases hs : M < basis.sum
  · rw [if_pos hs, (C28_rejects hm.wf basis).2 (.inr (by rw [hm.rows]; omega))]
    exact rfl
  · obtain ⟨l, hl, -⟩ := C116_split_rows hm.wf basis hb (by rw [hm.rows]; omega)
    rw [if_neg hs, hl, Res.ok_bind]
    by_cases hc : Clash first second
    · rw [ho1 hc, if_pos hc]
      exact trivial
    · obtain ⟨h1, h2⟩ := merged_rows hb hm (by omega) (cs := exchanges [] (first ++ second)) hl
      rw [ho2 hc, if_neg hc, Res.ok_bind]
      by_cases hout : Outside basis.length (exchanges [] (first ++ second))
      · rw [if_pos hout, update_length h1 hout]
        exact trivial
      · obtain ⟨l', m', e1, e2, h3⟩ := h2 hout
        rw [if_neg hout, e1, Res.ok_bind, e2]
        exact h3

private theorem one_clash {A : List Int} (h : Clash (requests 0 A) []) : refreshSwapOrder1 (pairUp 0 A) = .diverge := by
  rw [requests_eq] at h
  exact (C107_order_one _ (pairUp_fst_nodup 0 A)).1.2 h

private theorem one_fine {A : List Int} (h : ¬ Clash (requests 0 A) []) : refreshSwapOrder1 (pairUp 0 A) = .ok (exchanges [] (requests 0 A ++ [])) := by
  rw [requests_eq] at h
  obtain ⟨out, e, -⟩ := (C107_order_one _ (pairUp_fst_nodup 0 A)).2 h
  rw [e, order_one_eq e, requests_eq, List.append_nil]

/-- The two-list overload, as one list. -/
private def both (r : Res (List (Int × Int) × List (Int × Int))) : Res (List (Int × Int)) := do
  let x ← r
  .ok (x.1 ++ x.2)

private theorem two_clash {A B : List Int} (h : Clash (requests A.length B) (requests 0 A)) :
    both (refreshSwapOrder2 (pairUp A.length B) (pairUp 0 A)) = .diverge := by
  rw [requests_eq, requests_eq] at h
  unfold both
  rw [(C107_order _ _ (pairUp_fst_nodup _ B)).1.2 h]
  rfl

private theorem two_fine {A B : List Int} (h : ¬ Clash (requests A.length B) (requests 0 A)) :
    both (refreshSwapOrder2 (pairUp A.length B) (pairUp 0 A)) = .ok (exchanges [] (requests A.length B ++ requests 0 A)) := by
  rw [requests_eq, requests_eq] at h
  obtain ⟨outB, outA, e, -⟩ := (C107_order _ _ (pairUp_fst_nodup _ B)).2 h
  unfold both
  rw [e, Res.ok_bind, order_two_eq e, requests_eq, requests_eq]

private theorem small_cases {basis : List Int} : (∀ b ∈ basis, 1 ≤ b) ∨ ∃ b ∈ basis, b < 1 := by
  by_cases h : ∃ b ∈ basis, b < 1
  · exact .inr h
  · exact .inl fun b hb => Classical.byContradiction fun hn => h ⟨b, hb, by omega⟩

/-- A block size below 1. -/
private theorem or_small [Zero α] {basis : List Int} {m : Mat α} {M N : Int} {f : Int → Int → α} (hm : Values m M N f)
    {first second : List (Int × Int)} {run : Res (Mat α)}
    (h : (∀ b ∈ basis, 1 ≤ b) → Res.Like (fun m' g => Values m' M N g) run (servedCols basis first second N f))
    (hrun : splitMatrixIntoList basis m "Columns".toList = .exit 1 → run = .exit 1) :
    Res.Like (fun m' g => Values m' M N g) run (servedCols basis first second N f) := by
  rcases small_cases (basis := basis) with hb | hb
  · exact h hb
  · rw [hrun ((C28_rejects hm.wf basis).1 (.inl hb))]
    unfold servedCols
    rw [if_pos (.inl hb)]
    exact rfl

private theorem then_rows [Zero α] {basis : List Int} {M N : Int} {f : Int → Int → α} {first second : List (Int × Int)} {run : Res (Mat α)}
    {rows : Mat α → Res (Mat α)} (h : Res.Like (fun m' g => Values m' M N g) run (servedCols basis first second N f))
    (hr : (∀ b ∈ basis, 1 ≤ b) → ∀ m' g, Values m' M N g → Res.Like (fun m' g => Values m' M N g) (rows m') (if M < basis.sum then .exit 1 else do
      let order ← newOrder basis.length first second
      .ok (rowsTo basis order g))) :
    Res.Like (fun m' g => Values m' M N g) (run >>= rows) (servedBoth basis first second M N f) := by
  rcases small_cases (basis := basis) with hb | hb
  · exact h.bind (hr hb)
  · unfold servedBoth
    have e : servedCols basis first second N f = .exit 1 := by unfold servedCols; rw [if_pos (.inl hb)]
    rw [e] at h ⊢
    cases run <;> first | exact absurd h id | exact h

/-- **C121 (`unscramble_Coef`, one monomer).** For every list of matches and all block sizes: the outcome is that of the
specification. -/
theorem C121_coef_one [Zero α] (A basis : List Int) {m : Mat α} {M N : Int} {f : Int → Int → α} (hm : Values m M N f) :
    Res.Like (fun m' g => Values m' M N g) (unscrambleCoef1 A basis m) (servedCols basis (requests 0 A) [] N f) :=
  or_small hm (fun hb => served_cols hb hm one_clash one_fine rfl) (fun e => by unfold unscrambleCoef1; rw [e]; rfl)

/-- **C121 (`unscramble_S`, one monomer).** -/
theorem C121_overlap_one [Zero α] (A basis : List Int) {m : Mat α} {M N : Int} {f : Int → Int → α} (hm : Values m M N f) :
    Res.Like (fun m' g => Values m' M N g) (unscrambleS1 A basis m) (servedBoth basis (requests 0 A) [] M N f) := by
  rw [unscrambleS1_eq]
  exact then_rows (C121_coef_one A basis hm) fun hb m' g h => served_rows hb h one_clash one_fine rfl

/-- **C121 (`unscramble_Coef`, two monomers).** -/
theorem C121_coef_two [Zero α] (A B basis : List Int) {m : Mat α} {M N : Int} {f : Int → Int → α} (hm : Values m M N f) :
    Res.Like (fun m' g => Values m' M N g) (unscrambleCoef2 A B basis m) (servedCols basis (requests A.length B) (requests 0 A) N f) := by
  refine or_small hm (fun hb => served_cols hb hm two_clash two_fine ?_) (fun e => by unfold unscrambleCoef2; rw [e]; rfl)
  unfold unscrambleCoef2 both
  simp only [bind_assoc, Res.ok_bind, pairUp_length, updateSwapLists_append]

/-- **C121 (`unscramble_S`, two monomers).** -/
theorem C121_overlap_two [Zero α] (A B basis : List Int) {m : Mat α} {M N : Int} {f : Int → Int → α} (hm : Values m M N f) :
    Res.Like (fun m' g => Values m' M N g) (unscrambleS2 A B basis m) (servedBoth basis (requests A.length B) (requests 0 A) M N f) := by
  rw [unscrambleS2_eq]
  refine then_rows (C121_coef_two A B basis hm) fun hb m' g h => served_rows hb h two_clash two_fine ?_
  unfold unscrambleRows2 both
  simp only [bind_assoc, Res.ok_bind, pairUp_length, updateSwapLists_append]

/-! ### concrete cases -/

private def row4 : Mat Int := ⟨1, 4, 1, [some 10, some 20, some 30, some 40]⟩

private theorem row4_values : Values row4 1 4 (fun _ j => 10 * j) where
  wf := by decide
  rows := rfl
  cols := rfl
  shel := rfl
  val := by
    intro i j h1 h2 h3 h4
    obtain rfl : i = 1 := by omega
    have : j = 1 ∨ j = 2 ∨ j = 3 ∨ j = 4 := by omega
    rcases this with rfl | rfl | rfl | rfl <;> rfl

private theorem no_clash {A : List Int} (h : (match refreshSwapOrder1 (pairUp 0 A) with | .ok _ => true | _ => false) = true) : ¬ Clash (requests 0 A) [] := by
  intro hc
  rw [one_clash hc] at h
  cases h

/-- Two blocks, of one and two columns, are exchanged; the column that belongs to none is lost. -/
example : ∃ m', unscrambleCoef1 [2, 1] [1, 2] row4 = .ok m' ∧ m'.getElem2 1 1 = .ok 20 ∧ m'.getElem2 1 3 = .ok 10 ∧ m'.getElem2 1 4 = .ok 0 := by
  have h := C121_coef_one [2, 1] [1, 2] row4_values
  unfold servedCols newOrder at h
  rw [if_neg (by decide), if_neg (no_clash (by decide)), if_neg (by decide)] at h
  cases e : unscrambleCoef1 [2, 1] [1, 2] row4 with
  | ok m' =>
    rw [e] at h
    exact ⟨m', rfl, h.val 1 1 (by omega) (by omega) (by omega) (by omega), h.val 1 3 (by omega) (by omega) (by omega) (by omega),
      h.val 1 4 (by omega) (by omega) (by omega) (by omega)⟩
  | throw _ => rw [e] at h; exact absurd h id
  | exit _ => rw [e] at h; exact absurd h id
  | ub => rw [e] at h; exact absurd h id
  | diverge => rw [e] at h; exact absurd h id

/-- There is no third block. -/
example : unscrambleCoef1 [2, 3] [1, 2] row4 = .ub := by
  have h := C121_coef_one [2, 3] [1, 2] row4_values
  unfold servedCols newOrder at h
  rw [if_neg (by decide), if_neg (no_clash (by decide)), if_pos (by decide)] at h
  cases e : unscrambleCoef1 [2, 3] [1, 2] row4 <;> rw [e] at h <;> first | rfl | exact absurd h id

/-- More matches than blocks do no harm as long as nothing is to be moved. -/
example : ¬ Outside 2 (exchanges [] (requests 0 [1, 2, 3])) := by decide

/-- The blocks do not fit. -/
example : unscrambleCoef1 [2, 1] [1, 4] row4 = .exit 1 := by
  have h := C121_coef_one [2, 1] [1, 4] row4_values
  unfold servedCols at h
  rw [if_pos (by decide)] at h
  cases e : unscrambleCoef1 [2, 1] [1, 4] row4 <;> rw [e] at h <;> first | exact absurd h id | exact congrArg _ h

end QC
end Verif
