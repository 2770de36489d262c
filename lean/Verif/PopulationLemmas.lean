import Verif.LogLemmas
import Verif.Props.Strings
/-
The reader of gross orbital populations on a table of them.
-/
namespace Verif.Readers
open Strings Log

variable {α : Type} [Mul α] [Num α] [Zero α]

/-! ### letters -/

theorem alphabetical_iff (s : Str) : isAlphabetical s = true ↔ Letters s := by
  unfold isAlphabetical Letters
  simp only [Bool.and_eq_true, List.all_eq_true, Bool.not_eq_true', List.isEmpty_eq_false_iff]
  exact ⟨fun ⟨a, b⟩ => ⟨b, a⟩, fun ⟨a, b⟩ => ⟨b, a⟩⟩

theorem not_alphabetical {s : Str} (h : ¬ Letters s) : isAlphabetical s = false := by
  rw [← alphabetical_iff] at h; simpa using h

theorem alpha_not_space {c : Char} (h : isAlpha c = true) : isSpace c = false := by
  cases hs : isSpace c with
  | false => rfl
  | true =>
    exfalso
    unfold isSpace at hs
    simp only [Bool.or_eq_true, decide_eq_true_eq] at hs
    rcases hs with ((((rfl | rfl) | rfl) | rfl) | rfl) | rfl <;> revert h <;> decide

theorem trimmed_word {w : Str} (hw : ∀ c ∈ w, isSpace c = false) : trimmed w = w := by
  have := C45_trim_unique (l := []) (m := w) (r := []) (by simp) (by simp) (by
    cases w with
    | nil => exact .inl rfl
    | cons c t =>
      right
      refine ⟨⟨c, t, rfl, hw c (by simp)⟩, ?_⟩
      exact ⟨(c :: t).dropLast, (c :: t).getLast (by simp), (List.dropLast_append_getLast (by simp)).symm, hw _ (List.getLast_mem _)⟩)
  simpa using this

theorem trimmed_blanks : trimmed [' ', ' '] = [] := by decide

theorem trimmed_element {a b : Char}
    (h : (isAlpha a = true ∧ isAlpha b = true) ∨ (isAlpha a = true ∧ b = ' ') ∨ (a = ' ' ∧ isAlpha b = true)) :
    Letters (trimmed [a, b]) := by
  rcases h with ⟨ha, hb⟩ | ⟨ha, rfl⟩ | ⟨rfl, hb⟩
  · rw [trimmed_word]
    · exact ⟨by simp, by simp [show Letter a = true from ha, show Letter b = true from hb]⟩
    · simp [alpha_not_space ha, alpha_not_space hb]
  · have := C45_trim_unique (l := []) (m := [a]) (r := [' ']) (by simp) (by decide)
      (.inr ⟨⟨a, [], rfl, alpha_not_space ha⟩, [], a, rfl, alpha_not_space ha⟩)
    simp only [List.nil_append, List.singleton_append] at this
    rw [this]; exact ⟨by simp, by simp [show Letter a = true from ha]⟩
  · have := C45_trim_unique (l := [' ']) (m := [b]) (r := []) (by decide) (by simp)
      (.inr ⟨⟨b, [], rfl, alpha_not_space hb⟩, [], b, rfl, alpha_not_space hb⟩)
    simp only [List.append_nil, List.singleton_append] at this
    rw [this]; exact ⟨by simp, by simp [show Letter b = true from hb]⟩

theorem vecAt_left {left right : Str} {a b : Char} (h : left.length = 9) :
    vecAt (left ++ a :: b :: right) 9 = .ok a ∧ vecAt (left ++ a :: b :: right) 10 = .ok b := by
  have h1 := vecAt_nat (left ++ a :: b :: right) 9 (by simp; omega)
  have h2 := vecAt_nat (left ++ a :: b :: right) 10 (by simp; omega)
  constructor
  · refine h1.trans ?_
    rw [List.getElem_append_right (by omega)]; simp [h]
  · refine h2.trans ?_
    rw [List.getElem_append_right (by omega)]; simp [h]

/-! ### the words of a row -/

theorem word_no_space {l : Str} {ws : List Str} (h : Layout l ws) : ∀ w ∈ ws, ∀ c ∈ w, isSpace c = false := by
  obtain ⟨ps, trail, -, rfl, h1, -, -⟩ := h
  intro w hw
  obtain ⟨p, hp, rfl⟩ := List.mem_map.1 hw
  exact (h1 p hp).2.2

theorem populations_read {ws : List Str} {vals : List α} (h : Populations ws vals) {t : Str} (ht : splitSt t = ws)
    (hn : NoTrail t) : restOf (pushBack Num.stod) (after t) [] = .ok vals := by
  rw [restOf_words _ ht hn, foldlM_pushBack Num.stod ws vals []]
  · simp
  · rw [List.forall₂_iff_get]
    exact ⟨h.1, fun q h1 h2 => by simpa using (h.2 q h1 h2).1⟩

/-- The third word of a line. -/
theorem third_word {l : Str} {a b c : Str} {ws : List Str} (h : Words l (a :: b :: c :: ws)) (p : Str) :
    ∃ r1 r2 r3, extract (openText l) p = (a, after r1) ∧ (∀ q, extract (after r1) q = (b, after r2)) ∧
      (∀ q, extract (after r2) q = (c, after r3)) ∧ splitSt r1 = b :: c :: ws ∧ splitSt r2 = c :: ws ∧ splitSt r3 = ws ∧
      NoTrail r1 ∧ NoTrail r2 ∧ NoTrail r3 := by
  have any : ∀ (t w : Str), t ≠ [] → ∀ q, (extract (after t) w = extract (after t) q) ∨ splitSt t = [] := by
    intro t w ht q
    rw [after_open ht]
    by_cases hs : t.dropWhile isSpace = []
    · right; rw [splitSt_dropSpace, hs]; rfl
    · left
      unfold extract openText
      simp only [Bool.or_false, Bool.false_eq_true, if_false]
      cases hd : t.dropWhile isSpace with
      | nil => exact absurd hd hs
      | cons c u => rfl
  obtain ⟨r1, e1, e2, e3, -⟩ := extract_words h.split h.2 p
  obtain ⟨r2, f1, f2, f3⟩ := extract_after e2 e3 []
  obtain ⟨r3, g1, g2, g3⟩ := extract_after f2 f3 []
  refine ⟨r1, r2, r3, e1, fun q => ?_, fun q => ?_, e2, f2, g2, e3, f3, g3⟩
  · rcases any r1 [] (by rintro rfl; cases e2) q with hh | hh
    · rw [← hh]; exact f1
    · rw [hh] at e2; cases e2
  · rcases any r2 [] (by rintro rfl; cases f2) q with hh | hh
    · rw [← hh]; exact g1
    · rw [hh] at f2; cases f2

/-! ### the rows of an atom -/

/-- What some functions of an atom add. -/
def addFns (orb : OrbCont α) (key : Int × Str) (fns : List (Fn α)) : OrbCont α :=
  fns.foldl (fun o f => o.set key f.label f.vals) orb

/-- The line after the rows of an atom: the end of the table (`b`), or the first row of another atom. -/
def NextRow (nxt : Str) (b : Bool) : Prop :=
  IsLine nxt ∧ ((b = true ∧ foundSubStrInStr nxt aoEnd = true) ∨
    (b = false ∧ foundSubStrInStr nxt aoEnd = false ∧ ∃ w1 w2 w3 ws, Words nxt (w1 :: w2 :: w3 :: ws) ∧ Letters w3))

theorem aoRows_more (atom : Int) (elem : Str) (f : Fn α) (fs : List (Fn α)) (h : ∀ x ∈ f :: fs, FurtherRow x) {nxt : Str} {b : Bool}
    (hn : NextRow nxt b) (rest : Str) (pos : Option Str) (data : LogData α) (e2 : Str) (he : isAlphabetical e2 = false)
    (orbType : Str) (fuel : Nat) :
    aoRows atom elem (fuel + fs.length + 2)
        ⟨openText (unlines (fs.map (·.text)) ++ (nxt ++ '\n' :: rest)), pos, data⟩ f.text e2 orbType =
      .ok (⟨openText rest, pos, { data with orb := addFns data.orb (atom, elem) (f :: fs) }⟩, nxt, b) := by
  induction fs generalizing f data e2 orbType with
  | nil =>
    obtain ⟨-, -, ⟨no, ws, hw, hne, hp⟩, -⟩ := h f (by simp)
    obtain ⟨w, ws, rfl⟩ : ∃ w ws', ws = w :: ws' := by cases ws with
      | nil => exact absurd rfl hne
      | cons w ws' => exact ⟨w, ws', rfl⟩
    obtain ⟨r1, r2, r3, x1, x2, -, -, x5, -, -, x8, -⟩ := third_word hw []
    obtain ⟨hl, hn⟩ := hn
    rw [List.length_nil, aoRows, if_neg (by simp [he])]
    simp only [x1, x2, populations_read hp x5 x8, Res.ok_bind, List.map_nil, unlines_nil, List.nil_append, getline_line hl]
    rcases hn with ⟨rfl, hend⟩ | ⟨rfl, hend, w1, w2, w3, ws3, hw3, hlet⟩
    · rw [if_pos hend]; rfl
    · rw [hend]
      obtain ⟨y1, y2, y3, z1, z2, z3, -⟩ := third_word hw3 e2
      simp only [z1, z2, z3, Bool.false_eq_true, if_false]
      rw [trimmed_word (word_no_space hw3.1 w3 (by simp)), aoRows, if_pos ((alphabetical_iff _).2 hlet)]
      rfl
  | cons f' fs ih =>
    obtain ⟨-, -, ⟨no, ws, hw, hne, hp⟩, -⟩ := h f (by simp)
    obtain ⟨w, ws, rfl⟩ : ∃ w ws', ws = w :: ws' := by cases ws with
      | nil => exact absurd rfl hne
      | cons w ws' => exact ⟨w, ws', rfl⟩
    obtain ⟨r1, r2, r3, x1, x2, -, -, x5, -, -, x8, -⟩ := third_word hw []
    obtain ⟨hl, hnc, ⟨no', ws', hw', hne', hp'⟩, -⟩ := h f' (by simp)
    obtain ⟨w', ws', rfl⟩ : ∃ w ws'', ws' = w :: ws'' := by cases ws' with
      | nil => exact absurd rfl hne'
      | cons w ws' => exact ⟨w, ws', rfl⟩
    obtain ⟨y1, y2, y3, z1, z2, z3, -⟩ := third_word hw' e2
    rw [List.length_cons, show fuel + (fs.length + 1) + 2 = (fuel + fs.length + 2) + 1 by omega, aoRows, if_neg (by simp [he])]
    simp only [x1, x2, populations_read hp x5 x8, Res.ok_bind, List.map_cons, unlines_cons_append, getline_line hl, z1, z2, z3]
    have hnc : foundSubStrInStr f'.text aoEnd = false := not_found_contains.2 hnc
    rw [if_neg (by rw [hnc]; simp), trimmed_word (word_no_space hw'.1 w' (by simp))]
    have hnl := not_alphabetical (hp'.2 0 (by simp) (by rw [← hp'.1]; simp)).2
    simp only [List.getElem_cons_zero] at hnl
    rw [ih f' (fun x hx => h x (by simp only [List.mem_cons] at hx ⊢; exact .inr hx)) _ w' hnl]
    rfl

/-! ### the atoms -/

/-- What some atoms add, the first of them being number `k`. -/
def addAtoms (orb : OrbCont α) (k : Int) : List (Atom α) → OrbCont α
  | [] => orb
  | a :: as => addAtoms (addFns orb (k, a.elem) a.fns) (k + 1) as

/-- The lines of an atom. -/
def atomLines (a : Atom α) : List Str := a.fns.map (·.text)

/-- The line after an atom. -/
def lineAfter (as : List (Atom α)) (endl : Str) : Str := match as with
  | [] => endl
  | b :: _ => b.first.text

/-- The text after that line. -/
def textAfter (as : List (Atom α)) (endl rest : Str) : Str := match as with
  | [] => rest
  | b :: as => unlines (b.more.map (·.text)) ++ (unlines (as.flatMap atomLines) ++ (endl ++ '\n' :: rest))

theorem after_eq (as : List (Atom α)) (endl rest : Str) :
    unlines (as.flatMap atomLines) ++ (endl ++ '\n' :: rest) = lineAfter as endl ++ '\n' :: textAfter as endl rest := by
  cases as with
  | nil => simp [lineAfter, textAfter]
  | cons b as =>
    rw [List.flatMap_cons, unlines_append]
    simp [lineAfter, textAfter, atomLines, Atom.fns, unlines_cons, List.append_assoc]

theorem aoEnd_eq : aoEnd = (lit "         ") ++ 'C' :: 'o' :: (lit "ndensed to atoms") := by decide

theorem lineAfter_spec (as : List (Atom α)) (h : ∀ x ∈ as, AtomRows x) {endl : Str} (he : PopulationEnd endl) :
    NextRow (lineAfter as endl) as.isEmpty ∧
      ∃ left a b right, lineAfter as endl = left ++ a :: b :: right ∧ left.length = 9 ∧ Letters (trimmed [a, b]) := by
  cases as with
  | nil =>
    obtain ⟨h1, more, rfl⟩ := he
    refine ⟨⟨h1, .inl ⟨rfl, found_contains.2 ⟨[], more, rfl⟩⟩⟩, ?_⟩
    refine ⟨(lit "         "), 'C', 'o', (lit "ndensed to atoms") ++ more, ?_, by decide, trimmed_element (.inl (by decide))⟩
    show aoEnd ++ more = _
    rw [aoEnd_eq]; simp
  | cons b as =>
    obtain ⟨⟨h1, h2, h3, ⟨no, atm, ws, h4, -⟩, left, a, c, right, h5, h6, h7⟩, -⟩ := h b (by simp)
    exact ⟨⟨h1, .inr ⟨rfl, not_found_contains.2 h2, _, _, _, _, h4, h3⟩⟩, left, a, c, right, h5, h6, trimmed_element h7⟩

theorem aoAtoms_rows (a : Atom α) (as : List (Atom α)) (h : ∀ x ∈ a :: as, AtomRows x) (k : Int) {endl : Str}
    (he : PopulationEnd endl) (rest : Str) (pos : Option Str) (data : LogData α) :
    ∃ N, ∀ fuel, aoAtoms (fuel + N) k
        ⟨openText (unlines (a.more.map (·.text)) ++ (unlines (as.flatMap atomLines) ++ (endl ++ '\n' :: rest))), pos, data⟩ a.first.text =
      .ok ⟨openText rest, pos, { data with orb := addAtoms data.orb k (a :: as) }⟩ := by
  induction as generalizing a k data with
  | nil =>
    obtain ⟨hfirst, hmore⟩ := h a (by simp)
    obtain ⟨h1, h2, h3, ⟨no, atm, ws, h4, hp⟩, -⟩ := hfirst
    obtain ⟨hnext, left, ca, cb, right, hc1, hc2, hc3⟩ := lineAfter_spec ([] : List (Atom α)) (by simp) he
    refine ⟨a.more.length + 3, fun fuel => ?_⟩
    rw [after_eq]
    obtain ⟨r1, r2, r3, x1, x2, x3, -, -, x6, -, -, x9⟩ := third_word h4 []
    obtain ⟨r4, y1, y2, y3⟩ := extract_after x6 x9 []
    rw [show fuel + (a.more.length + 3) = (fuel + a.more.length + 2) + 1 by omega, aoAtoms]
    simp only [x1, x2, x3, y1, populations_read hp y2 y3, Res.ok_bind]
    cases hm : a.more with
    | nil =>
      simp only [List.map_nil, unlines_nil, List.nil_append, getline_line hnext.1]
      rw [hc1, (vecAt_left hc2).1, (vecAt_left hc2).2]
      simp only [Res.ok_bind]
      rw [List.length_nil, aoRows, if_pos ((alphabetical_iff _).2 hc3)]
      simp only [Res.ok_bind]
      rw [← hc1]
      obtain ⟨-, ⟨-, hend⟩ | ⟨hf, -⟩⟩ := hnext
      · rw [if_pos hend, if_pos rfl]
        simp [textAfter, addAtoms, Atom.fns, hm, addFns]
      · simp at hf
    | cons f fs =>
      obtain ⟨hl, -, -, left', right', hd1, hd2⟩ := hmore f (by rw [hm]; simp)
      simp only [List.map_cons, unlines_cons_append, getline_line hl]
      have v := vecAt_left (a := ' ') (b := ' ') (right := right') hd2
      rw [← hd1] at v
      rw [v.1, v.2]
      simp only [Res.ok_bind]
      rw [trimmed_blanks, List.length_cons, show fuel + (fs.length + 1) + 2 = (fuel + 1) + fs.length + 2 by omega]
      rw [aoRows_more k a.elem f fs (fun x hx => hmore x (by rw [hm]; exact hx)) hnext _ _ _ _ (by decide)]
      simp only [Res.ok_bind]
      obtain ⟨-, ⟨-, hend⟩ | ⟨hf, -⟩⟩ := hnext
      · rw [if_pos hend, if_pos rfl]
        simp [textAfter, addAtoms, Atom.fns, hm, addFns]
      · simp at hf
  | cons b as ih =>
    obtain ⟨hfirst, hmore⟩ := h a (by simp)
    obtain ⟨h1, h2, h3, ⟨no, atm, ws, h4, hp⟩, -⟩ := hfirst
    obtain ⟨hnext, left, ca, cb, right, hc1, hc2, hc3⟩ := lineAfter_spec (b :: as) (fun x hx => h x (by simp only [List.mem_cons] at hx ⊢; exact .inr hx)) he
    obtain ⟨N, hN⟩ := ih b (fun x hx => h x (by simp only [List.mem_cons] at hx ⊢; exact .inr hx)) (k + 1)
      { data with orb := addFns data.orb (k, a.elem) a.fns }
    refine ⟨N + a.more.length + 3, fun fuel => ?_⟩
    rw [after_eq]
    obtain ⟨r1, r2, r3, x1, x2, x3, -, -, x6, -, -, x9⟩ := third_word h4 []
    obtain ⟨r4, y1, y2, y3⟩ := extract_after x6 x9 []
    rw [show fuel + (N + a.more.length + 3) = (fuel + N + a.more.length + 2) + 1 by omega, aoAtoms]
    simp only [x1, x2, x3, y1, populations_read hp y2 y3, Res.ok_bind]
    cases hm : a.more with
    | nil =>
      simp only [List.map_nil, unlines_nil, List.nil_append, getline_line hnext.1]
      rw [hc1, (vecAt_left hc2).1, (vecAt_left hc2).2]
      simp only [Res.ok_bind]
      rw [List.length_nil, aoRows, if_pos ((alphabetical_iff _).2 hc3)]
      simp only [Res.ok_bind]
      rw [← hc1]
      obtain ⟨-, ⟨hf, -⟩ | ⟨-, hend, -⟩⟩ := hnext
      · simp at hf
      · rw [hend]
        simp only [Bool.false_eq_true, if_false]
        have := hN (fuel + 2)
        rw [show fuel + 2 + N = fuel + N + 0 + 2 by omega] at this
        simp only [Atom.fns, hm, addFns, List.foldl_cons, List.foldl_nil] at this
        rw [show addAtoms data.orb k (a :: b :: as) = addAtoms (data.orb.set (k, a.elem) a.first.label a.first.vals) (k + 1) (b :: as) by
          simp [addAtoms, Atom.fns, hm, addFns]]
        exact this
    | cons f fs =>
      obtain ⟨hl, -, -, left', right', hd1, hd2⟩ := hmore f (by rw [hm]; simp)
      simp only [List.map_cons, unlines_cons_append, getline_line hl]
      have v := vecAt_left (a := ' ') (b := ' ') (right := right') hd2
      rw [← hd1] at v
      rw [v.1, v.2]
      simp only [Res.ok_bind]
      rw [trimmed_blanks, List.length_cons, show fuel + N + (fs.length + 1) + 2 = (fuel + N + 1) + fs.length + 2 by omega]
      rw [aoRows_more k a.elem f fs (fun x hx => hmore x (by rw [hm]; exact hx)) hnext _ _ _ _ (by decide)]
      simp only [Res.ok_bind]
      obtain ⟨-, ⟨hf, -⟩ | ⟨-, hend, -⟩⟩ := hnext
      · simp at hf
      · rw [hend]
        simp only [Bool.false_eq_true, if_false, List.isEmpty_cons]
        have := hN (fuel + 1 + fs.length + 2)
        rw [show fuel + 1 + fs.length + 2 + N = fuel + N + 1 + fs.length + 2 by omega] at this
        simp only [Atom.fns, hm] at this
        rw [show addAtoms data.orb k (a :: b :: as) = addAtoms (addFns data.orb (k, a.elem) (a.first :: f :: fs)) (k + 1) (b :: as) by
          simp [addAtoms, Atom.fns, hm]]
        exact this

/-- The reader of populations. -/
theorem aoReader_table {l2 : Str} (h2 : IsLine l2) (atoms : List (Atom α)) (hne : atoms ≠ []) (h : ∀ a ∈ atoms, AtomRows a)
    {endl : Str} (he : PopulationEnd endl) (rest : Str) (pos : Option Str) (data : LogData α) :
    Ends (fun n => aoReader n ⟨openText (unlines (l2 :: (atoms.flatMap atomLines ++ [endl])) ++ rest), pos, data⟩)
      (.ok ⟨openText rest, pos, { data with orb := addAtoms data.orb 1 atoms }⟩) := by
  cases atoms with
  | nil => exact absurd rfl hne
  | cons a as =>
    obtain ⟨N, hN⟩ := aoAtoms_rows a as h 1 he rest pos data
    refine Ends.of_le N (by simp) (fun fuel => ?_)
    unfold aoReader
    have e : unlines (l2 :: ((a :: as).flatMap atomLines ++ [endl])) ++ rest = l2 ++ '\n' :: (a.first.text ++ '\n' ::
        (unlines (a.more.map (·.text)) ++ (unlines (as.flatMap atomLines) ++ (endl ++ '\n' :: rest)))) := by
      simp [unlines, atomLines, Atom.fns]
    rw [e, getline_line h2]
    simp only []
    rw [getline_line (h a (by simp)).1.1]
    exact hN fuel

end Verif.Readers
