import Verif.LogLemmas
import Verif.MatrixOps
import Verif.Props.Stoi
/-
The reader of overlap tables on such a table.
-/
namespace Verif.Readers
open Strings Log Mat

variable {α : Type} [Mul α] [Num α] [Zero α]

/-! ### numbers -/

theorem fortran_num {t : Str} {v : α} (h : FortranNum t v) : fortran t = .ok v := by
  obtain ⟨hf, m, e, a, b, rfl, hm, ha, hb, rfl⟩ := h
  have hfind : find (lit "D") (m ++ 'D' :: e) = some m.length := find_char 'D' m e hm
  unfold fortran grabStrBeforeFirstOccurance grabStrAfterFirstOccurance
  rw [hfind]
  simp only []
  rw [substr_ok (by omega), substr_npos hf (by simp)]
  have d1 : ((m ++ 'D' :: e).drop 0).take m.length = m := by simp
  have d2 : (m ++ 'D' :: e).drop (m.length + (lit "D").length) = e := by
    rw [show m.length + (lit "D").length = m.length + 1 from rfl, ← List.drop_drop]; simp
  rw [d1, d2]
  simp only [Res.ok_bind, ha, hb]

theorem stoi_digits (i : Nat) (h : i < 2 ^ 31) : stoi (Nat.toDigits 10 i) = .ok (i : Int) := by
  have h1 := Args.intToStr_text (i : Int)
  have h2 : intToStr (i : Int) = Nat.toDigits 10 i := by
    unfold intToStr; rw [if_neg (by omega)]; simp
  rw [h2] at h1
  exact (Args.C67_stoi _).1 _ h1 (by omega)

theorem extract_first (t prev : Str) : (extract (openText t) prev).1 = (splitSt t).headD prev := by
  rw [splitSt_dropSpace]
  unfold extract openText
  simp only [Bool.or_false, Bool.false_eq_true, if_false]
  obtain ⟨-, -, e3⟩ := span_space isSpace t
  rcases e3 with e3 | ⟨c, u, e3, hc⟩
  · rw [e3]; rfl
  · rw [e3, splitSt_word _ hc]; rfl

/-! ### filling the matrix -/

/-- The symmetric matrix whose lower triangle is `S`. -/
def symm (S : Nat → Nat → α) (i j : Int) : α := S (max i j).toNat (min i j).toNat

/-- An `n × n` matrix, some of whose entries (`D`) are those of `symm S`. -/
def Filled (n : Nat) (S : Nat → Nat → α) (D : Int → Int → Prop) (m : Mat α) : Prop :=
  ∃ f, IsMat m n n 1 f ∧ ∀ i j : Int, 1 ≤ i → i ≤ n → 1 ≤ j → j ≤ n → D i j → f i j 1 = symm S i j

theorem Filled.mono {n : Nat} {S : Nat → Nat → α} {D D' : Int → Int → Prop} {m : Mat α} (h : Filled n S D m)
    (hD : ∀ i j : Int, 1 ≤ i → i ≤ n → 1 ≤ j → j ≤ n → D' i j → D i j) : Filled n S D' m := by
  obtain ⟨f, h1, h2⟩ := h
  exact ⟨f, h1, fun i j a b c d e => h2 i j a b c d (hD i j a b c d e)⟩

theorem Filled.set {n : Nat} {S : Nat → Nat → α} {D : Int → Int → Prop} {m : Mat α} (h : Filled n S D m) {i j : Int}
    (hi : 1 ≤ i) (hi' : i ≤ n) (hj : 1 ≤ j) (hj' : j ≤ n) {v : α} (hv : v = symm S i j) :
    ∃ m', m.setElem2 v i j = .ok m' ∧ Filled n S (fun a b => D a b ∨ (a = i ∧ b = j)) m' := by
  obtain ⟨f, h1, h2⟩ := h
  obtain ⟨m', e, hm⟩ := h1.set2 (by omega) hi hi' hj hj' v
  refine ⟨m', e, _, hm, ?_⟩
  intro a b ha ha' hb hb' hd
  unfold upd
  split
  · rename_i hh; obtain ⟨rfl, rfl, -⟩ := hh; exact hv
  · rename_i hh
    rcases hd with hd | ⟨rfl, rfl⟩
    · exact h2 a b ha ha' hb hb' hd
    · exact absurd ⟨rfl, rfl, rfl⟩ hh

theorem symm_comm (S : Nat → Nat → α) (i j : Int) : symm S i j = symm S j i := by
  unfold symm; rw [Int.max_comm, Int.min_comm]

/-- Writing an entry and its mirror image, as both loops do. -/
theorem Filled.set_both {n : Nat} {S : Nat → Nat → α} {D : Int → Int → Prop} {m : Mat α} (h : Filled n S D m) {i j : Int}
    (hi : 1 ≤ i) (hi' : i ≤ n) (hj : 1 ≤ j) (hj' : j ≤ n) {v : α} (hv : v = symm S i j) :
    ∃ m', (do
        let m ← m.setElem2 v i j
        if i ≠ j then m.setElem2 v j i else Res.ok m) = .ok m' ∧
      Filled n S (fun a b => D a b ∨ (a = i ∧ b = j) ∨ (a = j ∧ b = i)) m' := by
  obtain ⟨m1, e1, h1⟩ := h.set hi hi' hj hj' hv
  rw [e1]
  simp only [Res.ok_bind]
  by_cases hij : i = j
  · subst hij
    refine ⟨m1, by simp, h1.mono ?_⟩
    rintro a b - - - - (h | h | h)
    · exact .inl h
    · exact .inr h
    · exact .inr h
  · obtain ⟨m2, e2, h2⟩ := h1.set hj hj' hi hi' (hv.trans (symm_comm S i j))
    refine ⟨m2, by rw [if_pos hij, e2], h2.mono ?_⟩
    rintro a b - - - - (h | h | h)
    · exact .inl (.inl h)
    · exact .inl (.inr h)
    · exact .inr h

/-- One row of the first block. -/
theorem overlapSetRow_filled {n : Nat} {S : Nat → Nat → α} {D : Int → Int → Prop} {m : Mat α} (h : Filled n S D m)
    (rowInd colInd : Int) (row : List α) (h0 : 0 ≤ rowInd) (hn : rowInd + 1 ≤ n) (hc : 1 ≤ colInd)
    (hlen : colInd + row.length ≤ rowInd + 2)
    (hv : ∀ q (hq : q < row.length), row[q] = symm S (rowInd + 1) (colInd + q)) :
    ∃ m', overlapSetRow rowInd colInd row m = .ok m' ∧
      Filled n S (fun a b => D a b ∨ (a = rowInd + 1 ∧ colInd ≤ b ∧ b < colInd + row.length) ∨
        (b = rowInd + 1 ∧ colInd ≤ a ∧ a < colInd + row.length)) m' := by
  induction row generalizing colInd m D with
  | nil =>
    refine ⟨m, rfl, h.mono ?_⟩
    intro a b _ _ _ _ hd
    simp only [List.length_nil] at hd
    rcases hd with hd | hd | hd
    · exact hd
    · omega
    · omega
  | cons v row ih =>
    simp only [List.length_cons] at hlen
    have hv0 := hv 0 (by simp)
    simp only [List.getElem_cons_zero] at hv0
    obtain ⟨m1, e1, h1⟩ := h.set_both (i := rowInd + 1) (j := colInd) (by omega) hn hc (by omega)
      (v := v) (by simpa using hv0)
    obtain ⟨m2, e2, h2⟩ := ih h1 (colInd + 1) (by omega) (by omega) (fun q hq => by
      have := hv (q + 1) (by simp; omega)
      simp only [List.getElem_cons_succ] at this
      rw [this]; congr 1; push_cast; omega)
    refine ⟨m2, ?_, h2.mono ?_⟩
    · rw [overlapSetRow]
      rw [Res.bind_eq_ok] at e1
      obtain ⟨mm, a1, a2⟩ := e1
      rw [a1]; simp only [Res.ok_bind]
      by_cases hne : rowInd + 1 = colInd
      · rw [if_neg (by simp [hne])] at a2 ⊢
        injection a2 with a2; subst a2; exact e2
      · rw [if_pos hne] at a2 ⊢
        rw [a2]; exact e2
    · intro a b _ _ _ _ hd
      simp only [List.length_cons] at hd
      push_cast at hd
      rcases hd with hd | ⟨rfl, hd⟩ | ⟨rfl, hd⟩
      · exact .inl (.inl hd)
      · by_cases hb : b = colInd
        · exact .inl (.inr (.inl ⟨rfl, hb⟩))
        · exact .inr (.inl ⟨rfl, by omega, by omega⟩)
      · by_cases hb : a = colInd
        · exact .inl (.inr (.inr ⟨hb, rfl⟩))
        · exact .inr (.inr ⟨rfl, by omega, by omega⟩)

/-- One row of a later block. -/
theorem overlapCoef_filled {n : Nat} {S : Nat → Nat → α} {D : Int → Int → Prop} {m : Mat α} (h : Filled n S D m)
    (start sectionCoef cnt : Int) (ws : List Str) (h0 : 0 ≤ sectionCoef) (hn : sectionCoef + 1 ≤ n) (hc : 1 ≤ start + cnt)
    (hlen : start + cnt + ws.length ≤ sectionCoef + 2)
    (hv : ∀ q (hq : q < ws.length), FortranNum ws[q] (symm S (sectionCoef + 1) (start + cnt + q))) :
    ∃ m', ws.foldlM (overlapCoef start sectionCoef) (m, cnt) = .ok (m', cnt + ws.length) ∧
      Filled n S (fun a b => D a b ∨ (a = sectionCoef + 1 ∧ start + cnt ≤ b ∧ b < start + cnt + ws.length) ∨
        (b = sectionCoef + 1 ∧ start + cnt ≤ a ∧ a < start + cnt + ws.length)) m' := by
  induction ws generalizing cnt m D with
  | nil =>
    refine ⟨m, by simp, h.mono ?_⟩
    intro a b _ _ _ _ hd
    simp only [List.length_nil] at hd
    rcases hd with hd | hd | hd
    · exact hd
    · omega
    · omega
  | cons w ws ih =>
    simp only [List.length_cons] at hlen
    have hw := hv 0 (by simp)
    simp only [List.getElem_cons_zero] at hw
    obtain ⟨m1, e1, h1⟩ := h.set_both (i := sectionCoef + 1) (j := start + cnt) (by omega) hn hc (by omega)
      (v := symm S (sectionCoef + 1) (start + cnt + (0 : Nat))) (by simp)
    obtain ⟨m2, e2, h2⟩ := ih h1 (cnt + 1) (by omega) (by omega) (fun q hq => by
      have := hv (q + 1) (by simp; omega)
      simp only [List.getElem_cons_succ] at this
      have e : start + (cnt + 1) + (q : Int) = start + cnt + ((q + 1 : Nat) : Int) := by push_cast; omega
      rw [e]; exact this)
    refine ⟨m2, ?_, h2.mono ?_⟩
    · rw [List.foldlM_cons, overlapCoef, fortran_num hw]
      simp only [Res.ok_bind]
      rw [Res.bind_eq_ok] at e1
      obtain ⟨mm, a1, a2⟩ := e1
      have fin : (ws.foldlM (overlapCoef start sectionCoef) (m1, cnt + 1) : Res (Mat α × Int)) =
          .ok (m2, cnt + ((w :: ws).length : Nat)) := by
        rw [e2]; simp only [List.length_cons]; push_cast; congr 2; omega
      rw [a1]; simp only [Res.ok_bind]
      by_cases hne : sectionCoef + 1 = start + cnt
      · rw [if_neg (by simp [hne])] at a2 ⊢
        injection a2 with a2; subst a2; exact fin
      · rw [if_pos hne] at a2 ⊢
        rw [a2]; exact fin
    · intro a b _ _ _ _ hd
      simp only [List.length_cons] at hd
      push_cast at hd
      rcases hd with hd | ⟨rfl, hd⟩ | ⟨rfl, hd⟩
      · exact .inl (.inl hd)
      · by_cases hb : b = start + cnt
        · exact .inl (.inr (.inl ⟨rfl, hb⟩))
        · exact .inr (.inl ⟨rfl, by omega, by omega⟩)
      · by_cases hb : a = start + cnt
        · exact .inl (.inr (.inr ⟨hb, rfl⟩))
        · exact .inr (.inr ⟨rfl, by omega, by omega⟩)

/-! ### the first block -/

/-- The values in a row of the first block. -/
def rowVals (S : Nat → Nat → α) (i : Nat) : List α := (List.range (min 5 i)).map (fun p => S i (p + 1))

theorem row_words {S : Nat → Nat → α} {k i : Nat} {l : Str} (h : OverlapRow S k i l) (prev : Str) :
    ∃ ws rest, extract (openText l) prev = (Nat.toDigits 10 i, after rest) ∧ splitSt rest = ws ∧ NoTrail rest ∧
      ws.length = min 5 (i - 5 * k) ∧ ∀ q (h : q < ws.length), FortranNum ws[q] (S i (5 * k + 1 + q)) := by
  obtain ⟨-, ws, hw, h1, h2⟩ := h
  obtain ⟨rest, e1, e2, e3, -⟩ := extract_words hw.split hw.2 prev
  exact ⟨ws, rest, e1, e2, e3, h1, h2⟩

theorem overlapFirst_rows (S : Nat → Nat → α) (rows : List Str) (c : Nat) (line cC : Str) (acc : List (List α)) (rest : Str)
    (hc : c = 0 ∨ cC = Nat.toDigits 10 c)
    (hn : c + rows.length < 2 ^ 31 - 1) (hrows : ∀ q (h : q < rows.length), OverlapRow S 0 (c + 1 + q) rows[q]) :
    ∃ line' cC', (c + rows.length = 0 ∨ cC' = Nat.toDigits 10 (c + rows.length)) ∧
      ∀ fuel, overlapFirst (fuel + rows.length) (openText (unlines rows ++ rest)) line cC c acc =
        overlapFirst fuel (openText rest) line' cC' (c + rows.length : Nat)
          (acc ++ (List.range rows.length).map (fun q => rowVals S (c + 1 + q))) := by
  induction rows generalizing c line cC acc with
  | nil => exact ⟨line, cC, by simpa using hc, fun fuel => by simp⟩
  | cons l rows ih =>
    simp only [List.length_cons] at hn
    have h0 := hrows 0 (by simp)
    simp only [List.getElem_cons_zero, Nat.add_zero] at h0
    obtain ⟨ws, r1, e1, e2, e3, e4, e5⟩ := row_words h0 cC
    obtain ⟨line', cC', i1, i2⟩ := ih (c + 1) l (Nat.toDigits 10 (c + 1)) (acc ++ [rowVals S (c + 1)]) (.inr rfl) (by omega)
      (fun q hq => by
        have := hrows (q + 1) (by simp; omega)
        simp only [List.getElem_cons_succ] at this
        rwa [show c + 1 + 1 + q = c + 1 + (q + 1) by omega])
    refine ⟨line', cC', ?_, ?_⟩
    · simpa only [List.length_cons, show c + (rows.length + 1) = c + 1 + rows.length by omega] using i1
    · intro fuel
      have := i2 fuel
      rw [unlines_cons_append, List.length_cons, ← Nat.add_assoc, overlapFirst, getline_line h0.1]
      simp only []
      rw [e1]
      simp only []
      rw [stoi_digits _ (by omega)]
      simp only [Res.ok_bind]
      rw [if_neg (by push_cast; simp), restOf_words _ e2 e3, foldlM_pushBack fortran ws (rowVals S (c + 1)) []]
      · simp only [Res.ok_bind, List.nil_append]
        push_cast at this ⊢
        rw [this]
        congr 1
        · omega
        · rw [List.append_assoc]; congr 1
          rw [List.range_succ_eq_map, List.map_cons, List.map_map]
          simp only [List.singleton_append]
          congr 1
          apply List.map_congr_left
          intro q _
          simp only [Function.comp]
          congr 1; omega
      · rw [List.forall₂_iff_get]
        have hl : ws.length = (rowVals S (c + 1)).length := by rw [e4]; simp [rowVals]
        refine ⟨hl, fun q h1 h2 => ?_⟩
        have := fortran_num (e5 q h1)
        simp only [List.get_eq_getElem]
        rw [this]
        simp only [rowVals, List.getElem_map, List.getElem_range]
        congr 2; omega

/-- The line that ends the first block. -/
theorem overlapFirst_stop (n : Nat) (hn : n < 2 ^ 31 - 1) {rest l cC : Str} {fid : Stream} (acc : List (List α))
    (hg : ∀ prev, getline (openText rest) prev = (l, fid)) (hC : cC = Nat.toDigits 10 n)
    (hstop : splitSt l = [] ∨ ∃ w ws i, splitSt l = w :: ws ∧ stoi w = .ok i ∧ i ≠ (n : Int) + 1) (fuel : Nat) (line : Str) :
    overlapFirst (fuel + 1) (openText rest) line cC n acc = .ok (fid, l, (n : Int), acc) := by
  rw [overlapFirst, hg]
  simp only []
  have hE := extract_first l cC
  cases hx : extract (openText l) cC with
  | mk w iss =>
    rw [hx] at hE
    simp only [] at hE ⊢
    rcases hstop with hs | ⟨w', ws, i, hs, h1, h2⟩
    · rw [hs] at hE
      simp only [List.headD_nil] at hE
      rw [hE, hC, stoi_digits _ (by omega)]
      simp only [Res.ok_bind]
      rw [if_pos (by omega)]
    · rw [hs] at hE
      simp only [List.headD_cons] at hE
      rw [hE, h1]
      simp only [Res.ok_bind]
      rw [if_pos h2]

theorem overlapSetRows_filled {n : Nat} (S : Nat → Nat → α) (len c : Nat) {m : Mat α} (hcn : c + len ≤ n)
    (h : Filled n S (fun a b => min a b ≤ 5 ∧ max a b ≤ c) m) :
    ∃ m', overlapSetRows c ((List.range len).map (fun q => rowVals S (c + 1 + q))) m = .ok m' ∧
      Filled n S (fun a b => min a b ≤ 5 ∧ max a b ≤ c + len) m' := by
  induction len generalizing c m with
  | zero => exact ⟨m, rfl, by simpa using h⟩
  | succ len ih =>
    have hlen : (rowVals S (c + 1)).length = min 5 (c + 1) := by simp [rowVals]
    obtain ⟨m1, e1, h1⟩ := overlapSetRow_filled h c 1 (rowVals S (c + 1)) (by omega) (by omega) (by omega)
      (by rw [hlen]; omega) (fun q hq => by
        rw [hlen] at hq
        simp only [rowVals, List.getElem_map, List.getElem_range, symm]
        congr 1
        · omega
        · omega)
    obtain ⟨m2, e2, h2⟩ := ih (c + 1) (by omega) (h1.mono (by
      intro a b _ _ _ _ hd
      rw [hlen]
      omega))
    refine ⟨m2, ?_, h2.mono ?_⟩
    · rw [List.range_succ_eq_map, List.map_cons, List.map_map, overlapSetRows]
      rw [show c + 1 + 0 = c + 1 from rfl, e1]
      simp only [Res.ok_bind]
      have : (List.range len).map ((fun q => rowVals S (c + 1 + q)) ∘ Nat.succ) =
          (List.range len).map (fun q => rowVals S (c + 1 + 1 + q)) := by
        apply List.map_congr_left
        intro q _
        simp only [Function.comp]
        congr 1; omega
      rw [this]
      push_cast at e2
      exact e2
    · intro a b _ _ _ _ hd
      push_cast at hd ⊢
      omega

/-! ### the later blocks -/

theorem overlapBlock_rows {n : Nat} (S : Nat → Nat → α) (k : Nat) (rows : List Str) (c : Nat) (line rest : Str) {m : Mat α}
    (hk : 5 * k ≤ c) (hcn : c + rows.length ≤ n)
    (hrows : ∀ q (h : q < rows.length), OverlapRow S k (c + 1 + q) rows[q])
    (h : Filled n S (fun a b => min a b ≤ 5 * k ∨ (min a b ≤ 5 * k + 5 ∧ max a b ≤ c)) m) :
    ∃ m' line', overlapBlock (5 * k : Nat) rows.length c (openText (unlines rows ++ rest)) line m =
        .ok (openText rest, line', m') ∧
      Filled n S (fun a b => min a b ≤ 5 * k ∨ (min a b ≤ 5 * k + 5 ∧ max a b ≤ c + rows.length)) m' := by
  induction rows generalizing c line m with
  | nil => exact ⟨m, line, rfl, by simpa using h⟩
  | cons l rows ih =>
    simp only [List.length_cons] at hcn
    have h0 := hrows 0 (by simp)
    simp only [List.getElem_cons_zero, Nat.add_zero] at h0
    obtain ⟨ws, r1, e1, e2, e3, e4, e5⟩ := row_words h0 []
    obtain ⟨m1, f1, h1⟩ := overlapCoef_filled h (5 * k : Nat) c 1 ws (by omega) (by omega) (by omega)
      (by rw [e4]; omega) (fun q hq => by
        have := e5 q hq
        rw [e4] at hq
        unfold symm
        convert this using 2
        · omega
        · omega)
    obtain ⟨m2, line', g1, g2⟩ := ih (c + 1) l (by omega) (by omega) (fun q hq => by
        have := hrows (q + 1) (by simp; omega)
        simp only [List.getElem_cons_succ] at this
        rwa [show c + 1 + 1 + q = c + 1 + (q + 1) by omega]) (h1.mono (by
      intro a b _ _ _ _ hd
      rw [e4]
      push_cast at hd ⊢
      omega))
    refine ⟨m2, line', ?_, g2.mono ?_⟩
    · rw [unlines_cons_append, List.length_cons, overlapBlock, getline_line h0.1]
      simp only []
      rw [e1]
      simp only []
      rw [restOf_words _ e2 e3, f1]
      simp only [Res.ok_bind]
      push_cast at g1 ⊢
      exact g1
    · intro a b _ _ _ _ hd
      simp only [List.length_cons] at hd
      push_cast at hd ⊢
      omega

/-- The text of some blocks, and what follows. -/
def blocksText (bs : List (Str × List Str)) (rest : Str) : Str := unlines (bs.flatMap (fun b => b.1 :: b.2)) ++ rest

/-- What is left of it after its first line; `fid` is what is left of `rest` after its first line. -/
def consumed (bs : List (Str × List Str)) (rest : Str) (fid : Stream) : Stream :=
  match bs with
  | [] => fid
  | b :: bs => openText (unlines b.2 ++ blocksText bs rest)

theorem blocksText_cons (b : Str × List Str) (bs : List (Str × List Str)) (rest : Str) :
    blocksText (b :: bs) rest = b.1 ++ '\n' :: (unlines b.2 ++ blocksText bs rest) := by
  unfold blocksText
  rw [List.flatMap_cons, List.cons_append, unlines_cons, unlines_append]
  simp

theorem getline_blocks {bs : List (Str × List Str)} {rest l : Str} {fid : Stream}
    (hg : ∀ prev, getline (openText rest) prev = (l, fid)) (hb : ∀ b ∈ bs, IsLine b.1) (prev : Str) :
    getline (openText (blocksText bs rest)) prev = ((bs.head?.map (·.1)).getD l, consumed bs rest fid) := by
  cases bs with
  | nil => simpa [blocksText, consumed] using hg prev
  | cons b bs =>
    rw [blocksText_cons, getline_line (hb b (by simp))]
    rfl

theorem overlapBlocks_filled {n : Nat} (S : Nat → Nat → α) (bs : List (Str × List Str)) (k : Nat) (line rest l : Str)
    {fid : Stream} {m : Mat α} (hg : ∀ prev, getline (openText rest) prev = (l, fid))
    (hbs : ∀ q (h : q < bs.length), OverlapBlock n S (k + q) bs[q]) (hk : bs ≠ [] → 5 * (k + bs.length) < n + 5)
    (h : Filled n S (fun a b => min a b ≤ 5 * k) m) :
    ∃ m', overlapBlocks n bs.length (5 * k : Nat) (consumed bs rest fid) line m = .ok (fid, m') ∧
      Filled n S (fun a b => min a b ≤ 5 * (k + bs.length)) m' := by
  induction bs generalizing k line m with
  | nil => exact ⟨m, rfl, by simpa using h⟩
  | cons b bs ih =>
    have hk' := hk (by simp)
    simp only [List.length_cons] at hk'
    have h0 := hbs 0 (by simp)
    simp only [List.getElem_cons_zero, Nat.add_zero] at h0
    obtain ⟨b1, b2, b3, b4⟩ := h0
    obtain ⟨m1, line1, e1, h1⟩ := overlapBlock_rows (n := n) S k b.2 (5 * k) line (blocksText bs rest) (m := m)
      (Nat.le_refl _) (by omega) b4 (h.mono (by
        intro a b _ _ _ _ hd
        push_cast at hd
        omega))
    have hg' := getline_blocks (bs := bs) hg (fun x hx => by
      obtain ⟨q, hq, rfl⟩ := List.mem_iff_getElem.1 hx
      have := hbs (q + 1) (by simp; omega)
      simp only [List.getElem_cons_succ] at this
      exact this.1) line1
    obtain ⟨m2, e2, h2⟩ := ih (k + 1) ((bs.head?.map (·.1)).getD l) (fun q hq => by
        have := hbs (q + 1) (by simp; omega)
        simp only [List.getElem_cons_succ] at this
        rwa [show k + 1 + q = k + (q + 1) by omega]) (fun _ => by omega) (h1.mono (by
      intro a b _ _ _ _ hd
      push_cast at hd ⊢
      omega))
    refine ⟨m2, ?_, h2.mono ?_⟩
    · rw [List.length_cons, overlapBlocks]
      have hnum : ((n : Int) - (5 * k : Nat)).toNat = b.2.length := by omega
      rw [hnum]
      show ((overlapBlock _ _ _ (openText (unlines b.2 ++ blocksText bs rest)) line m) >>= _) = _
      rw [e1]
      simp only [Res.ok_bind]
      rw [hg']
      simp only []
      push_cast at e2 ⊢
      rw [← e2]
      congr 1
    · intro a b _ _ _ _ hd
      simp only [List.length_cons] at hd
      push_cast at hd ⊢
      omega

/-- The whole table. `rest` is what follows it, `l` its first line. -/
theorem overlapReader_table {n : Nat} {S : Nat → Nat → α} {blocks : List (Str × List Str)} (ht : OverlapTable n S blocks)
    {rest l : Str} {fid : Stream} (hg : ∀ prev, getline (openText rest) prev = (l, fid))
    (hstop : 5 < n ∨ splitSt l = [] ∨ ∃ w ws i, splitSt l = w :: ws ∧ stoi w = .ok i ∧ i ≠ (n : Int) + 1)
    (pos : Option Str) (data : LogData α) :
    ∃ m, IsMat m n n 1 (fun i j _ => symm S i j) ∧
      Ends (fun fuel => overlapReader fuel ⟨openText (blocksText blocks rest), pos, data⟩)
        (.ok ⟨fid, pos, { data with S := some m }⟩) := by
  obtain ⟨hn1, hn2, hlen, hbl⟩ := ht
  cases hb : blocks with
  | nil => rw [hb] at hlen; simp only [List.length_nil] at hlen; omega
  | cons b bs =>
    subst hb
    simp only [List.length_cons] at hlen
    have h0 := hbl 0 (by simp)
    simp only [List.getElem_cons_zero] at h0
    obtain ⟨b1, b2, b3, b4⟩ := h0
    simp only [Nat.mul_zero, Nat.sub_zero, Nat.zero_add] at b3 b4
    have hbs : ∀ q (h : q < bs.length), OverlapBlock n S (1 + q) bs[q] := by
      intro q hq
      have := hbl (q + 1) (by simp; omega)
      simp only [List.getElem_cons_succ] at this
      rwa [Nat.add_comm 1 q]
    have hg' := getline_blocks (bs := bs) hg (fun x hx => by
      obtain ⟨q, hq, rfl⟩ := List.mem_iff_getElem.1 hx
      exact (hbs q hq).1)
    obtain ⟨line', cC', i1, i2⟩ := overlapFirst_rows S b.2 0 b.1 [] [] (blocksText bs rest) (.inl rfl) (by omega)
      (fun q hq => by simpa only [Nat.zero_add] using b4 q hq)
    simp only [Nat.zero_add, List.nil_append, b3] at i1 i2
    have i1 := i1.resolve_left (by omega)
    have hstop' : splitSt ((bs.head?.map (·.1)).getD l) = [] ∨
        ∃ w ws i, splitSt ((bs.head?.map (·.1)).getD l) = w :: ws ∧ stoi w = .ok i ∧ i ≠ (n : Int) + 1 := by
      cases hb : bs with
      | nil =>
        rw [hb] at hlen
        simp only [List.length_nil] at hlen
        exact hstop.resolve_left (by omega)
      | cons b' bs' =>
        subst hb
        simp only [List.length_cons] at hlen
        right
        have := hbs 0 (by simp)
        simp only [List.getElem_cons_zero] at this
        obtain ⟨-, ⟨ws, hl⟩, -, -⟩ := this
        refine ⟨_, ws, 6, hl.split, ?_, by omega⟩
        exact stoi_digits 6 (by omega)
    have hfirst := overlapFirst_stop (α := α) n (by omega) (rest := blocksText bs rest)
      ((List.range n).map (fun q => rowVals S (1 + q))) hg' i1 hstop'
    obtain ⟨m0, hm0, hz⟩ := mk2_isMat (α := α) (r := n) (c := n) (by omega) (by omega)
    have hf0 : Filled n S (fun a b => min a b ≤ 5 ∧ max a b ≤ (0 : Nat)) m0 := ⟨_, hz, by intro i j; omega⟩
    obtain ⟨m1, hm1, hf1⟩ := overlapSetRows_filled S n 0 (by omega) hf0
    obtain ⟨m2, hm2, hf2⟩ := overlapBlocks_filled (n := n) S bs 1 ((bs.head?.map (·.1)).getD l) rest l (m := m1) hg hbs
      (fun _ => by omega) (hf1.mono (by intro a b _ _ _ _ hd; push_cast at hd ⊢; omega))
    obtain ⟨f, hmat, hf⟩ := hf2
    refine ⟨m2, hmat.congr ?_, ?_⟩
    · rintro i j k ⟨hi, hi', hj, hj', hk, hk'⟩
      have : k = 1 := by omega
      subst this
      exact hf i j hi hi' hj hj' (by push_cast; omega)
    · refine Ends.of_le (n + 1) (by simp) (fun fuel => ?_)
      unfold overlapReader
      rw [blocksText_cons, getline_line b1]
      simp only []
      rw [show fuel + (n + 1) = (fuel + 1) + n by omega]
      have e := i2 (fuel + 1)
      simp only [Nat.zero_add] at hm1
      rw [show ((0 : Nat) : Int) = 0 from rfl] at e hm1
      rw [e, hfirst fuel line']
      simp only [Res.ok_bind, hm0, hm1]
      have hs : ((n : Int).tdiv 5 + (if (n : Int).tmod 5 > 0 then 1 else 0) - 1).toNat = bs.length := by
        rw [Int.tdiv_eq_ediv_of_nonneg (by omega), Int.tmod_eq_emod_of_nonneg (by omega)]
        split <;> omega
      rw [hs]
      simp only [Nat.mul_one] at hm2
      rw [show ((5 : Nat) : Int) = 5 from rfl] at hm2
      rw [hm2]
      rfl

/-- A table of one block only, followed by a line whose first word is no integer. -/
theorem overlapReader_throw {n : Nat} {S : Nat → Nat → α} {blocks : List (Str × List Str)} (ht : OverlapTable n S blocks) (h5 : n ≤ 5)
    {rest l w : Str} {ws : List Str} {fid : Stream} (hg : ∀ prev, getline (openText rest) prev = (l, fid))
    (hw : splitSt l = w :: ws) {e : Exn} (hs : stoi w = .throw e) (pos : Option Str) (data : LogData α) :
    Ends (fun fuel => overlapReader fuel ⟨openText (blocksText blocks rest), pos, data⟩) (.throw e) := by
  obtain ⟨hn1, hn2, hlen, hbl⟩ := ht
  have h1 : blocks.length = 1 := by omega
  obtain ⟨b, rfl⟩ := List.length_eq_one_iff.1 h1
  have h0 := hbl 0 (by simp)
  simp only [List.getElem_cons_zero] at h0
  obtain ⟨b1, b2, b3, b4⟩ := h0
  simp only [Nat.mul_zero, Nat.sub_zero, Nat.zero_add] at b3 b4
  obtain ⟨line', cC', i1, i2⟩ := overlapFirst_rows S b.2 0 b.1 [] [] (blocksText [] rest) (.inl rfl) (by omega)
    (fun q hq => by simpa only [Nat.zero_add] using b4 q hq)
  simp only [Nat.zero_add, List.nil_append, b3] at i1 i2
  refine Ends.of_le (n + 1) (by simp) (fun fuel => ?_)
  unfold overlapReader
  rw [blocksText_cons, getline_line b1]
  simp only []
  rw [show fuel + (n + 1) = (fuel + 1) + n by omega]
  have e' := i2 (fuel + 1)
  rw [show ((0 : Nat) : Int) = 0 from rfl] at e'
  rw [e', overlapFirst]
  have hg' : ∀ prev, getline (openText (blocksText [] rest)) prev = (l, fid) := by simpa [blocksText] using hg
  rw [hg']
  simp only []
  have hE := extract_first l cC'
  rw [hw] at hE
  cases hx : extract (openText l) cC' with
  | mk w' iss =>
    rw [hx] at hE
    simp only [List.headD_cons] at hE
    subst hE
    simp only [hs, Res.throw_bind]

end Verif.Readers
