import Verif.ReaderLemmas
import Verif.LogReader
import Verif.Spec.Log
/-
Each section reader of the log file reader on the table it is meant for.
-/
namespace Verif.Readers
open Strings Log

variable {α : Type} [Mul α] [Num α]

theorem not_contains_of_char {l p : Str} {c : Char} (h1 : c ∈ p) (h2 : c ∉ l) : ¬ Contains l p := by
  rintro ⟨x, y, rfl⟩; exact h2 (by simp [h1])

theorem vecAt_nat {β : Type} (l : List β) (n : Nat) (h : n < l.length) : vecAt l (n : Int) = .ok l[n] := by
  unfold vecAt
  rw [if_neg (by omega)]
  simp [h]

/-! ### coordinates -/

theorem coordLoop_rows (rows : List (Str × α × α × α)) (h : ∀ r ∈ rows, CoordRow r) (endLine rest : Str) (he : Ruler endLine)
    (X Y Z : List α) (fuel : Nat) (hf : rows.length < fuel) (line : Str) (fid : Stream)
    (hl : getline (openText (unlines (rows.map (·.1)) ++ endLine ++ '\n' :: rest)) [] = (line, fid)) :
    coordLoop fuel fid line X Y Z =
      .ok (openText rest, X ++ rows.map (·.2.1), Y ++ rows.map (·.2.2.1), Z ++ rows.map (·.2.2.2)) := by
  induction rows generalizing X Y Z fuel line fid with
  | nil =>
    obtain ⟨fuel, rfl⟩ : ∃ k, fuel = k + 1 := ⟨fuel - 1, by simp at hf; omega⟩
    simp only [List.map_nil, unlines_nil, List.nil_append] at hl
    rw [getline_line he.1] at hl
    injection hl with h1 h2
    subst h1; subst h2
    unfold coordLoop
    rw [if_pos (show foundSubStrInStr endLine coordEnd = true from found_contains.2 he.2)]
    simp
  | cons r rows ih =>
    obtain ⟨fuel, rfl⟩ : ∃ k, fuel = k + 1 := ⟨fuel - 1, by simp at hf; omega⟩
    obtain ⟨h1, h2, a, b, c, x, y, z, more, h3, h4, h5, h6⟩ := h r (by simp)
    rw [List.map_cons, List.append_assoc, unlines_cons_append, getline_line h1, ← List.append_assoc] at hl
    injection hl with e1 e2
    subst e1; subst e2
    unfold coordLoop
    have hnc : foundSubStrInStr r.1 coordEnd = false := not_found_contains.2 h2
    rw [hnc, h3.split]
    have v3 := vecAt_nat (a :: b :: c :: x :: y :: z :: more) 3 (by simp)
    have v4 := vecAt_nat (a :: b :: c :: x :: y :: z :: more) 4 (by simp)
    have v5 := vecAt_nat (a :: b :: c :: x :: y :: z :: more) 5 (by simp)
    simp only [Bool.false_eq_true, if_false]
    rw [show (3 : Int) = ((3 : Nat) : Int) from rfl, v3, show (4 : Int) = ((4 : Nat) : Int) from rfl, v4,
      show (5 : Int) = ((5 : Nat) : Int) from rfl, v5]
    simp only [Res.ok_bind, List.getElem_cons_succ, List.getElem_cons_zero, h4, h5, h6]
    have hprev : ∀ t p, getline (openText t) p = getline (openText t) [] := by
      intro t p; unfold getline openText; simp
    rw [hprev]
    cases hg : getline (openText (unlines (rows.map (·.1)) ++ endLine ++ '\n' :: rest)) [] with
    | mk line' fid' =>
      simp only []
      rw [ih (fun q hq => h q (by simp [hq])) _ _ _ fuel (by simp at hf; omega) line' fid' hg]
      simp

theorem getline_prev (t p : Str) : getline (openText t) p = getline (openText t) [] := by
  unfold getline openText; simp

/-- The reader of coordinate tables. -/
theorem coordReader_table {l2 l3 : Str} (h2 : IsLine l2) (h3 : IsLine l3) (rows : List (Str × α × α × α))
    (h : ∀ r ∈ rows, CoordRow r) (endLine : Str) (he : Ruler endLine) (rest : Str) (pos : Option Str) (data : LogData α) :
    Ends (fun n => coordReader n ⟨openText (unlines ([l2, l3] ++ rows.map (·.1) ++ [endLine]) ++ rest), pos, data⟩)
      (.ok ⟨openText rest, pos, { data with xyz := [rows.map (·.2.1), rows.map (·.2.2.1), rows.map (·.2.2.2)] }⟩) := by
  refine ⟨by simp, rows.length + 1, fun fuel hf => ?_⟩
  unfold coordReader
  have e : unlines ([l2, l3] ++ rows.map (·.1) ++ [endLine]) ++ rest
      = l2 ++ '\n' :: (l3 ++ '\n' :: (unlines (rows.map (·.1)) ++ endLine ++ '\n' :: rest)) := by
    simp [unlines]
  rw [e]
  simp only [getline_line h2, getline_line h3]
  rw [getline_prev]
  cases hg : getline (openText (unlines (rows.map (·.1)) ++ endLine ++ '\n' :: rest)) [] with
  | mk line fid =>
    simp only []
    rw [coordLoop_rows rows h endLine rest he [] [] [] fuel (by omega) line fid hg]
    simp

/-! ### orbital energies -/

theorem tokens_split (acc a : Str) {c : Char} (hc : isSpace c = true) (b : Str) :
    tokens acc (a ++ c :: b) = tokens acc a ++ tokens [] b := by
  induction a generalizing acc with
  | nil =>
    simp only [List.nil_append, tokens, hc, if_true]
    split <;> simp
  | cons d a ih =>
    rw [List.cons_append, tokens, tokens]
    split
    · split
      · exact ih _
      · rw [ih]; simp
    · exact ih _

theorem splitSt_split (a : Str) {c : Char} (hc : isSpace c = true) (b : Str) :
    splitSt (a ++ c :: b) = splitSt a ++ splitSt b := by
  simp only [splitSt_eq]; exact tokens_split [] a hc b

/-- The text of some energies. -/
def fieldsText (fields : List (Str × Str)) : Str := fields.flatMap (fun p => p.1 ++ p.2)

/-- The energies grouped by the words they are printed in. -/
def groups : List (Str × Str) → List (List Str)
  | [] => []
  | p :: ps =>
    match ps with
    | [] => [[p.2]]
    | q :: _ =>
      if q.1 = [] then
        match groups ps with
        | [] => [[p.2]]
        | g :: gs => (p.2 :: g) :: gs
      else [p.2] :: groups ps

theorem groups_flatten (fields : List (Str × Str)) : (groups fields).flatten = fields.map (·.2) := by
  induction fields with
  | nil => rfl
  | cons p ps ih =>
    rw [groups.eq_def]
    cases ps with
    | nil => rfl
    | cons q qs =>
      simp only []
      split
      · rw [List.map_cons, ← ih]
        cases hg : groups (q :: qs) with
        | nil => rw [hg] at ih; simp at ih
        | cons g gs => simp
      · rw [List.map_cons, ← ih]; simp

theorem groups_ne {fields : List (Str × Str)} : ∀ g ∈ groups fields, g ≠ [] := by
  induction fields with
  | nil => simp [groups]
  | cons p ps ih =>
    rw [groups.eq_def]
    cases ps with
    | nil => simp
    | cons q qs =>
      simp only []
      split
      · cases hg : groups (q :: qs) with
        | nil => simp
        | cons g gs =>
          intro x hx
          rcases List.mem_cons.1 hx with rfl | hx
          · simp
          · exact ih x (by rw [hg]; simp [hx])
      · intro x hx
        rcases List.mem_cons.1 hx with rfl | hx
        · simp
        · exact ih x hx

/-- All but the first of a group start with a minus sign. -/
theorem groups_minus {fields : List (Str × Str)} (h : ∀ p ∈ fields.tail, p.1 ≠ [] ∨ p.2.head? = some '-') :
    ∀ g ∈ groups fields, ∀ t ∈ g.tail, t.head? = some '-' := by
  induction fields with
  | nil => simp [groups]
  | cons p ps ih =>
    have ih' := ih (fun q hq => h q (by simpa using List.mem_of_mem_tail hq))
    rw [groups.eq_def]
    cases ps with
    | nil => simp
    | cons q qs =>
      simp only []
      split
      · rename_i hq
        cases hg : groups (q :: qs) with
        | nil => simp
        | cons g gs =>
          intro x hx
          rcases List.mem_cons.1 hx with rfl | hx
          · simp only [List.tail_cons]
            have hfl := groups_flatten (q :: qs)
            rw [hg] at hfl
            cases g with
            | nil => simp
            | cons t g' =>
              simp only [List.flatten_cons, List.map_cons, List.cons_append] at hfl
              injection hfl with e1 _
              intro y hy
              rcases List.mem_cons.1 hy with rfl | hy
              · rw [e1]
                rcases h q (by simp) with h | h
                · exact absurd hq h
                · exact h
              · exact ih' (t :: g') (by rw [hg]; simp) y (by simpa using hy)
          · exact ih' x (by rw [hg]; simp [hx])
      · intro x hx
        rcases List.mem_cons.1 hx with rfl | hx
        · simp
        · exact ih' x hx

theorem energyText_noSpace {t : Str} (h : EnergyText t) : t ≠ [] ∧ ∀ c ∈ t, isSpace c = false := by
  obtain ⟨sign, body, rfl, hs, hb, hc⟩ := h
  refine ⟨by simp [hb], ?_⟩
  intro c hc'
  have hd : ∀ c, isDigit c = true → isSpace c = false := by
    intro c hc
    unfold isDigit at hc
    simp only [Bool.and_eq_true, decide_eq_true_eq] at hc
    have h0 : ('0' : Char).toNat ≤ c.toNat := hc.1
    cases hsp : isSpace c with
    | false => rfl
    | true =>
      exfalso
      unfold isSpace at hsp
      simp only [Bool.or_eq_true, decide_eq_true_eq] at hsp
      rcases hsp with ((((rfl | rfl) | rfl) | rfl) | rfl) | rfl <;> revert h0 <;> decide
  rcases List.mem_append.1 hc' with hm | hm
  · rcases hs with rfl | rfl
    · cases hm
    · rw [List.mem_singleton] at hm; subst hm; decide
  · rcases hc c hm with h | rfl | rfl
    · exact hd c h
    · decide
    · decide

theorem takeWhile_word (w s : Str) (hw : ∀ c ∈ w, isSpace c = false) :
    (w ++ s).takeWhile (fun c => !isSpace c) = w ++ s.takeWhile (fun c => !isSpace c) ∧
      (w ++ s).dropWhile (fun c => !isSpace c) = s.dropWhile (fun c => !isSpace c) := by
  induction w with
  | nil => simp
  | cons c w ih =>
    have hc := hw c (by simp)
    have := ih (fun x hx => hw x (by simp [hx]))
    simp [hc, this.1, this.2]

theorem splitSt_wordAppend (w s : Str) (hne : w ≠ []) (hw : ∀ c ∈ w, isSpace c = false) :
    splitSt (w ++ s) = (w ++ s.takeWhile (fun c => !isSpace c)) :: splitSt (s.dropWhile (fun c => !isSpace c)) := by
  cases w with
  | nil => exact absurd rfl hne
  | cons c w =>
    rw [List.cons_append, splitSt_word _ (hw c (by simp)), ← List.cons_append, (takeWhile_word _ s hw).1,
      (takeWhile_word _ s hw).2]

theorem splitSt_blanks (w s : Str) (hw : ∀ c ∈ w, c = ' ') : splitSt (w ++ s) = splitSt s := by
  simp only [splitSt_eq]
  exact tokens_space w (fun c hc => by rw [hw c hc]; decide) s

theorem fieldsText_words {fields : List (Str × Str)} (h : ∀ p ∈ fields, (∀ c ∈ p.1, c = ' ') ∧ EnergyText p.2) :
    splitSt (fieldsText fields) = (groups fields).map List.flatten := by
  induction fields with
  | nil => rfl
  | cons p ps ih =>
    obtain ⟨h1, h2⟩ := h p (by simp)
    obtain ⟨n1, n2⟩ := energyText_noSpace h2
    have ih' := ih (fun q hq => h q (by simp [hq]))
    have e : fieldsText (p :: ps) = p.1 ++ (p.2 ++ fieldsText ps) := by simp [fieldsText]
    rw [e, splitSt_blanks _ _ h1, splitSt_wordAppend _ _ n1 n2, groups.eq_def]
    cases ps with
    | nil => simp [fieldsText]; rfl
    | cons q qs =>
      simp only []
      obtain ⟨q1, q2⟩ := h q (by simp)
      obtain ⟨m1, m2⟩ := energyText_noSpace q2
      split
      · rename_i hq
        have e2 : fieldsText (q :: qs) = q.2 ++ fieldsText qs := by simp [fieldsText, hq]
        rw [e2] at ih' ⊢
        rw [splitSt_wordAppend _ _ m1 m2] at ih'
        rw [(takeWhile_word _ _ m2).1, (takeWhile_word _ _ m2).2]
        cases hg : groups (q :: qs) with
        | nil => rw [hg] at ih'; simp at ih'
        | cons g gs =>
          rw [hg, List.map_cons] at ih'
          injection ih' with a1 a2
          simp only [List.map_cons, List.flatten_cons]
          rw [a1, a2]
      · rename_i hq
        cases hq1 : q.1 with
        | nil => exact absurd hq1 hq
        | cons c cs =>
          have hc : c = ' ' := q1 c (by rw [hq1]; simp)
          have hsp : isSpace c = true := by rw [hc]; decide
          have e3 : fieldsText (q :: qs) = c :: (cs ++ q.2 ++ fieldsText qs) := by simp [fieldsText, hq1]
          have t1 : (fieldsText (q :: qs)).takeWhile (fun c => !isSpace c) = [] := by rw [e3]; simp [hsp]
          have t2 : (fieldsText (q :: qs)).dropWhile (fun c => !isSpace c) = fieldsText (q :: qs) := by rw [e3]; simp [hsp]
          rw [t1, t2, ih']
          simp

/-- `find` of a single character. -/
theorem find_char (c : Char) (a b : Str) (h : c ∉ a) : find [c] (a ++ c :: b) = some a.length := by
  induction a with
  | nil => simp [find, List.isPrefixOf]
  | cons d a ih =>
    have hd : c ≠ d := fun e => h (by simp [e])
    rw [List.cons_append, find]
    rw [if_neg (by simp [List.isPrefixOf, hd])]
    rw [ih (fun e => h (by simp [e]))]
    simp

theorem find_char_none (c : Char) (a : Str) (h : c ∉ a) : find [c] a = none := by
  induction a with
  | nil => simp [find]
  | cons d a ih =>
    have hd : c ≠ d := fun e => h (by simp [e])
    rw [find]
    rw [if_neg (by simp [List.isPrefixOf, hd])]
    rw [ih (fun e => h (by simp [e]))]
    rfl

/-- An energy that starts with a minus sign. -/
theorem energyText_minus {t : Str} (h : EnergyText t) (hm : t.head? = some '-') : ∃ body, t = '-' :: body ∧ '-' ∉ body := by
  obtain ⟨sign, body, rfl, hs, hb, hc⟩ := h
  have hnb : '-' ∉ body := by
    intro hm'
    rcases hc _ hm' with h | h | h <;> revert h <;> decide
  rcases hs with rfl | rfl
  · exfalso
    simp only [List.nil_append] at hm
    exact hnb (List.mem_of_head? hm)
  · exact ⟨body, rfl, hnb⟩

theorem energyText_plus {t : Str} (h : EnergyText t) (hm : t.head? ≠ some '-') : '-' ∉ t := by
  obtain ⟨sign, body, rfl, hs, hb, hc⟩ := h
  have hnb : '-' ∉ body := by
    intro hm'
    rcases hc _ hm' with h | h | h <;> revert h <;> decide
  rcases hs with rfl | rfl
  · simpa using hnb
  · simp at hm

theorem splitItemLoop_minus (ts : List Str) (h : ∀ t ∈ ts, EnergyText t ∧ t.head? = some '-') (fuel : Nat)
    (hf : ts.length < fuel) (items2 : List Str) :
    splitItemLoop fuel ts.flatten (find (lit "-") ts.flatten) items2 = .ok (items2 ++ ts) := by
  induction ts generalizing fuel items2 with
  | nil =>
    obtain ⟨fuel, rfl⟩ : ∃ k, fuel = k + 1 := ⟨fuel - 1, by simp at hf; omega⟩
    simp only [List.flatten_nil]
    rw [show find (lit "-") [] = none from rfl, splitItemLoop]
    simp
  | cons t ts ih =>
    obtain ⟨fuel, rfl⟩ : ∃ k, fuel = k + 1 := ⟨fuel - 1, by simp at hf; omega⟩
    obtain ⟨h1, h2⟩ := h t (by simp)
    obtain ⟨body, rfl, hb⟩ := energyText_minus h1 h2
    have hfind : find (lit "-") (('-' :: body) :: ts).flatten = some 0 := by
      simp only [List.flatten_cons, List.cons_append]
      exact find_char '-' [] (body ++ ts.flatten) (by simp)
    rw [hfind, splitItemLoop]
    rw [substr_ok (by omega)]
    simp only [Res.ok_bind, if_true, List.flatten_cons, List.cons_append, List.drop_succ_cons, List.drop_zero]
    cases ts with
    | nil =>
      simp only [List.flatten_nil, List.append_nil]
      have : find (lit "-") body = none := find_char_none '-' body hb
      rw [this]
      simp only [List.length_cons]
      rw [List.drop_of_length_le (by omega)]
      obtain ⟨fuel, rfl⟩ : ∃ k, fuel = k + 1 := ⟨fuel - 1, by simp at hf; omega⟩
      rw [show find (lit "-") [] = none from rfl, splitItemLoop]
    | cons u us =>
      obtain ⟨g1, g2⟩ := h u (by simp)
      obtain ⟨body2, rfl, hb2⟩ := energyText_minus g1 g2
      have hfind2 : find (lit "-") (body ++ (('-' :: body2) :: us).flatten) = some body.length := by
        simp only [List.flatten_cons, List.cons_append]
        exact find_char '-' body _ hb
      rw [hfind2]
      simp only []
      rw [substr_ok (by omega)]
      simp only [Res.ok_bind, List.drop_zero]
      rw [List.drop_left, ih (fun x hx => h x (by simp [hx])) fuel (by simp at hf ⊢; omega)]
      simp

theorem splitItemLoop_group (w : Str) (g : List Str) (h : ∀ t ∈ g, EnergyText t) (hne : g ≠ [])
    (hm : ∀ t ∈ g.tail, t.head? = some '-') (hw : w = g.flatten) (items2 : List Str) :
    (match find (lit "-") w with
      | none => Res.ok (items2 ++ [w])
      | some pos => splitItemLoop (w.length + 1) w (some pos) items2) = .ok (items2 ++ g) := by
  cases g with
  | nil => exact absurd rfl hne
  | cons t ts =>
    simp only [List.tail_cons] at hm
    have hlen : ∀ ts : List Str, (∀ t ∈ ts, EnergyText t) → ts.length ≤ ts.flatten.length := by
      intro ts
      induction ts with
      | nil => simp
      | cons a as ih =>
        intro ha
        have h1 := ih (fun x hx => ha x (by simp [hx]))
        have h2 := (energyText_noSpace (ha a (by simp))).1
        have := List.length_pos_iff.2 h2
        simp only [List.flatten_cons, List.length_append, List.length_cons]; omega
    have hl := hlen (t :: ts) h
    rw [← hw] at hl
    by_cases ht : t.head? = some '-'
    · have hall : ∀ x ∈ t :: ts, EnergyText x ∧ x.head? = some '-' := by
        intro x hx
        refine ⟨h x hx, ?_⟩
        rcases List.mem_cons.1 hx with rfl | hx
        · exact ht
        · exact hm x hx
      have key := splitItemLoop_minus (t :: ts) hall (w.length + 1) (by simp at hl ⊢; omega) items2
      rw [← hw] at key
      obtain ⟨body, rfl, -⟩ := energyText_minus (h t (by simp)) ht
      have hfind : find (lit "-") w = some 0 := by
        rw [hw]; simp only [List.flatten_cons, List.cons_append]
        exact find_char '-' [] _ (by simp)
      rw [hfind] at key ⊢
      exact key
    · have hnt := energyText_plus (h t (by simp)) ht
      cases ts with
      | nil =>
        have : w = t := by simpa using hw
        subst this
        have : find (lit "-") w = none := find_char_none '-' w hnt
        rw [this]
      | cons u us =>
        obtain ⟨body2, rfl, -⟩ := energyText_minus (h u (by simp)) (hm u (by simp))
        have hfind : find (lit "-") w = some t.length := by
          rw [hw]; simp only [List.flatten_cons, List.cons_append]
          exact find_char '-' t _ hnt
        rw [hfind]
        simp only []
        have htl := List.length_pos_iff.2 (energyText_noSpace (h t (by simp))).1
        have hwt : w = t ++ (('-' :: body2) :: us).flatten := by rw [hw]; simp
        rw [splitItemLoop, substr_ok (by omega)]
        simp only [Res.ok_bind, List.drop_zero]
        rw [if_neg (by omega)]
        have d1 : w.drop t.length = (('-' :: body2) :: us).flatten := by rw [hwt]; simp
        have d2 : w.take t.length = t := by rw [hwt]; simp
        rw [d1, d2, splitItemLoop_minus _ (fun x hx => ⟨h x (by simp [hx]), hm x hx⟩) w.length (by simp at hl ⊢; omega)]
        simp

theorem splitItems_low (ws : List Str) (items items2 : List Str) (inc : Nat) (h : inc + ws.length ≤ 4) :
    splitItems inc (ws ++ items) items2 = splitItems (inc + ws.length) items (items2 ++ ws) := by
  induction ws generalizing inc items2 with
  | nil => simp
  | cons w ws ih =>
    rw [List.cons_append, splitItems, if_pos (by simp at h; omega)]
    simp only [Res.ok_bind]
    rw [ih (inc + 1) (items2 := items2 ++ [w]) (by simp at h; omega)]
    simp [Nat.add_assoc, Nat.add_comm 1]

theorem splitItems_high (gs : List (List Str)) (h : ∀ g ∈ gs, g ≠ [] ∧ (∀ t ∈ g, EnergyText t) ∧ ∀ t ∈ g.tail, t.head? = some '-')
    (inc : Nat) (hi : 4 ≤ inc) (items2 : List Str) :
    splitItems inc (gs.map List.flatten) items2 = .ok (items2 ++ gs.flatten) := by
  induction gs generalizing inc items2 with
  | nil => simp [splitItems]
  | cons g gs ih =>
    obtain ⟨h1, h2, h3⟩ := h g (by simp)
    rw [List.map_cons, splitItems, if_neg (by omega)]
    have key := splitItemLoop_group g.flatten g h2 h1 h3 rfl items2
    have fin : (Res.ok (items2 ++ g) >>= fun items2 => splitItems (inc + 1) (gs.map List.flatten) items2)
        = .ok (items2 ++ (g :: gs).flatten) := by
      simp only [Res.ok_bind]
      rw [ih (fun x hx => h x (by simp [hx])) (inc + 1) (by omega)]
      simp
    cases hfd : find (lit "-") g.flatten with
    | none => rw [hfd] at key; simp only at key ⊢; rw [key]; exact fin
    | some pos => rw [hfd] at key; simp only at key ⊢; rw [key]; exact fin

theorem flatten_singletons (gs : List (List Str)) (h : ∀ g ∈ gs, g ≠ []) (hl : gs.flatten.length ≤ gs.length) :
    gs.map List.flatten = gs.flatten := by
  induction gs with
  | nil => rfl
  | cons g gs ih =>
    have hpos : gs.length ≤ gs.flatten.length := by
      have : ∀ l : List (List Str), (∀ g ∈ l, g ≠ []) → l.length ≤ l.flatten.length := by
        intro l
        induction l with
        | nil => simp
        | cons a l ih =>
          intro ha
          have h1 := ih (fun x hx => ha x (by simp [hx]))
          have := List.length_pos_iff.2 (ha a (by simp))
          simp only [List.flatten_cons, List.length_append, List.length_cons]; omega
      exact this gs (fun x hx => h x (by simp [hx]))
    have hg := List.length_pos_iff.2 (h g (by simp))
    simp only [List.flatten_cons, List.length_append, List.length_cons] at hl
    have hg1 : g.length = 1 := by omega
    obtain ⟨t, rfl⟩ := List.length_eq_one_iff.1 hg1
    rw [List.map_cons, ih (fun x hx => h x (by simp [hx])) (by simp only [List.length_singleton] at hl; omega)]
    simp

theorem fields_words {start : Str} {w1 w2 w3 w4 : Str} (hs : splitSt start = [w1, w2, w3, w4])
    {fields : List (Str × Str)} (h : EnergyFields fields) :
    splitSt (start ++ ' ' :: fieldsText fields) = [w1, w2, w3, w4] ++ (groups fields).map List.flatten := by
  rw [splitSt_split _ (by decide), hs, fieldsText_words h.1]

/-- Taking an energy line apart. -/
theorem splitStEnergies_line' {start : Str} {w1 w2 w3 w4 : Str} (hs : splitSt start = [w1, w2, w3, w4])
    {fields : List (Str × Str)} (h : EnergyFields fields)
    (hl : fields.length ≤ 5 ∨ (splitSt (start ++ ' ' :: fieldsText fields)).length ≠ 9) :
    splitStEnergies (start ++ ' ' :: fieldsText fields) = .ok ([w1, w2, w3, w4] ++ fields.map (·.2)) := by
  unfold splitStEnergies
  have e := fields_words hs h
  rw [e] at hl
  simp only [e]
  have hmem : ∀ g ∈ groups fields, ∀ t ∈ g, EnergyText t := by
    intro g hg t ht
    have : t ∈ (groups fields).flatten := List.mem_flatten.2 ⟨g, hg, ht⟩
    rw [groups_flatten] at this
    obtain ⟨p, hp, rfl⟩ := List.mem_map.1 this
    exact (h.1 p hp).2
  split
  · rename_i h9
    have h9' : (groups fields).length = 5 := by simpa using h9
    have hl := hl.resolve_right (by simp [h9'])
    rw [flatten_singletons _ groups_ne (by rw [groups_flatten]; simp; omega), groups_flatten]
  · rw [splitItems_low _ _ _ _ (by simp), splitItems_high _ (fun g hg => ⟨groups_ne g hg, hmem g hg, groups_minus h.2 g hg⟩) _ (by simp),
      groups_flatten]
    simp

theorem splitStEnergies_line {start : Str} {w1 w2 w3 w4 : Str} (hs : splitSt start = [w1, w2, w3, w4])
    {fields : List (Str × Str)} (h : EnergyFields fields) (hl : fields.length ≤ 5) :
    splitStEnergies (start ++ ' ' :: fieldsText fields) = .ok ([w1, w2, w3, w4] ++ fields.map (·.2)) :=
  splitStEnergies_line' hs h (.inl hl)

theorem fieldsText_chars {fields : List (Str × Str)} (h : EnergyFields fields) :
    ∀ c ∈ fieldsText fields, c = ' ' ∨ c = '-' ∨ isDigit c = true ∨ c = '.' ∨ c = '*' := by
  intro c hc
  obtain ⟨p, hp, hc⟩ := List.mem_flatMap.1 hc
  obtain ⟨h1, sign, body, h2, h3, -, h4⟩ := h.1 p hp
  rcases List.mem_append.1 hc with hc | hc
  · exact .inl (h1 c hc)
  · rw [h2] at hc
    rcases List.mem_append.1 hc with hc | hc
    · rcases h3 with rfl | rfl
      · cases hc
      · exact .inr (.inl (by simpa using hc))
    · exact .inr (.inr (h4 c hc))

theorem fieldsText_not {fields : List (Str × Str)} (h : EnergyFields fields) (c : Char)
    (hc : (c = ' ' ∨ c = '-' ∨ isDigit c = true ∨ c = '.' ∨ c = '*') = False) : c ∉ fieldsText fields := by
  intro hm
  have := fieldsText_chars h c hm
  rw [hc] at this
  exact this

theorem text_eq (spin : Spin) (e : EnergyLine) : EnergyLine.text spin e = energyStart spin e.1 ++ fieldsText e.2 := rfl

theorem text_not (spin : Spin) {e : EnergyLine} (h : EnergyFields e.2) (c : Char)
    (h1 : c ∉ energyStart spin e.1) (hc : (c = ' ' ∨ c = '-' ∨ isDigit c = true ∨ c = '.' ∨ c = '*') = False) :
    c ∉ EnergyLine.text spin e := by
  rw [text_eq, List.mem_append]
  rintro (h2 | h2)
  · exact h1 h2
  · exact fieldsText_not h c hc h2

theorem text_isLine (spin : Spin) {e : EnergyLine} (h : EnergyFields e.2) : IsLine (EnergyLine.text spin e) := by
  obtain ⟨o, f⟩ := e
  apply text_not spin h
  · cases spin <;> cases o <;> (simp only []; decide)
  · simp only [eq_iff_iff, iff_false]; decide

theorem text_occ (spin : Spin) {e : EnergyLine} (h : EnergyFields e.2) :
    foundSubStrInStr (EnergyLine.text spin e) ((lit " ") ++ spin.name ++ (lit "  occ. eigenvalues -- ")) = e.1 := by
  obtain ⟨o, f⟩ := e
  cases o with
  | true =>
    rw [found_contains]
    cases spin with
    | alpha => exact ⟨[], fieldsText f, rfl⟩
    | beta => exact ⟨[' '], fieldsText f, rfl⟩
  | false =>
    apply not_found (c := 'c')
    · cases spin <;> decide
    · apply text_not spin h
      · cases spin <;> (simp only []; decide)
      · simp only [eq_iff_iff, iff_false]; decide

theorem text_any (spin : Spin) {e : EnergyLine} (h : EnergyFields e.2) :
    (foundSubStrInStr (EnergyLine.text spin e) ((lit " ") ++ spin.name ++ (lit "  occ. eigenvalues -- ")) ||
      foundSubStrInStr (EnergyLine.text spin e) ((lit " ") ++ spin.name ++ (lit " virt. eigenvalues -- "))) = true := by
  rw [text_occ spin h]
  obtain ⟨o, f⟩ := e
  cases o with
  | true => rfl
  | false =>
    rw [Bool.false_or, found_contains]
    cases spin with
    | alpha => exact ⟨[], fieldsText f, rfl⟩
    | beta => exact ⟨[' '], fieldsText f, rfl⟩

theorem text_split (spin : Spin) {e : EnergyLine} (h : EnergyFields e.2) (hl : e.2.length ≤ 5) :
    ∃ ws, ws.length = 4 ∧ splitStEnergies (EnergyLine.text spin e) = .ok (ws ++ e.2.map (·.2)) := by
  obtain ⟨o, f⟩ := e
  have key : ∀ start w1 w2 w3 w4, energyStart spin o = start ++ [' '] → splitSt start = [w1, w2, w3, w4] →
      ∃ ws, ws.length = 4 ∧ splitStEnergies (EnergyLine.text spin (o, f)) = .ok (ws ++ f.map (·.2)) := by
    intro start w1 w2 w3 w4 h1 h2
    refine ⟨[w1, w2, w3, w4], rfl, ?_⟩
    have e : EnergyLine.text spin (o, f) = start ++ ' ' :: fieldsText f := by
      rw [text_eq]; simp only [h1]; simp
    rw [e]
    exact splitStEnergies_line h2 h hl
  cases spin <;> cases o
  · exact key (lit " Alpha virt. eigenvalues --") (lit "Alpha") (lit "virt.") (lit "eigenvalues") (lit "--") rfl (by decide)
  · exact key (lit " Alpha  occ. eigenvalues --") (lit "Alpha") (lit "occ.") (lit "eigenvalues") (lit "--") rfl (by decide)
  · exact key (lit "  Beta virt. eigenvalues --") (lit "Beta") (lit "virt.") (lit "eigenvalues") (lit "--") rfl (by decide)
  · exact key (lit "  Beta  occ. eigenvalues --") (lit "Beta") (lit "occ.") (lit "eigenvalues") (lit "--") rfl (by decide)

theorem set_set {V : Type} (m : Map V) (k : Str) (v w : V) : (m.set k v).set k w = m.set k w := by
  induction m with
  | nil => simp [Map.set]
  | cons p m ih =>
    obtain ⟨k', v'⟩ := p
    by_cases h1 : k = k'
    · subst h1; simp [Map.set]
    · by_cases h2 : strLt k k' = true
      · simp [Map.set, h1, h2]
      · simp [Map.set, h1, h2, ih]

theorem pushEnergies_eq (spin : Str) (occ : Bool) (ts : List Str) (d : LogData α) (oe : Map (List α)) (homo : Map Int)
    (V : List α) (H : Int) :
    pushEnergies spin occ ts { d with oe := oe.set spin V, homo := homo.set spin H } =
      { d with
        oe := oe.set spin (V ++ ts.map Num.atof)
        homo := homo.set spin (H + if occ then ts.length else 0) } := by
  induction ts generalizing V H with
  | nil => cases occ <;> simp [pushEnergies]
  | cons t ts ih =>
    rw [pushEnergies]
    simp only [Map.get_set_self, Option.getD_some, set_set]
    cases occ with
    | true =>
      simp only [if_true]
      rw [ih]
      simp [List.append_assoc]; congr 1; omega
    | false =>
      simp only [Bool.false_eq_true, if_false] at ih ⊢
      rw [ih]
      simp [List.append_assoc]

/-- What follows a table of energies does not look like another line of it. -/
def NextOk (spin : Spin) (rest : Str) : Prop :=
  rest = [] ∨ (rest ≠ [] ∧ IsLine rest ∧ NoEnergyLine spin rest) ∨
    ∃ l r, rest = l ++ '\n' :: r ∧ IsLine l ∧ NoEnergyLine spin l

/-- The energy table read so far. -/
def withEnergies (d : LogData α) (spin : Spin) (es : List EnergyLine) : LogData α :=
  { d with oe := d.oe.set spin.name ((energies es).map Num.atof), homo := d.homo.set spin.name (occupied es) }

theorem energies_append (a b : List EnergyLine) : energies (a ++ b) = energies a ++ energies b := by simp [energies]
theorem occupied_append (a b : List EnergyLine) : occupied (a ++ b) = occupied a + occupied b := by
  simp [occupied, energies_append]

theorem energiesLoop_table (spin : Spin) (es : List EnergyLine) (h : ∀ e ∈ es, EnergyFields e.2 ∧ e.2.length ≤ 5)
    (rest : Str) (hr : NextOk spin rest) (d : LogData α) (done : List EnergyLine) (fuel : Nat) (hf : es.length < fuel)
    (pos : Option Str) (hp : es = [] → pos = some rest) (line : Str) :
    energiesLoop spin.name fuel ⟨openText (unlines (es.map (EnergyLine.text spin)) ++ rest), pos, withEnergies d spin done⟩ line
      = .ok ⟨(getline (openText rest) []).2, some rest, withEnergies d spin (done ++ es)⟩ := by
  induction es generalizing done fuel pos line with
  | nil =>
    obtain ⟨fuel, rfl⟩ : ∃ k, fuel = k + 1 := ⟨fuel - 1, by simp at hf; omega⟩
    rw [hp rfl]
    simp only [List.map_nil, unlines_nil, List.nil_append, List.append_nil]
    unfold energiesLoop
    have stop : ∀ l : Str, NoEnergyLine spin l →
        (foundSubStrInStr l ((lit " ") ++ spin.name ++ (lit "  occ. eigenvalues -- ")) ||
          foundSubStrInStr l ((lit " ") ++ spin.name ++ (lit " virt. eigenvalues -- "))) = false := by
      intro l hl
      rw [not_found_contains.2 hl.1, not_found_contains.2 hl.2]; rfl
    rcases hr with rfl | ⟨hne, hl, hn⟩ | ⟨l, r, rfl, hl, hn⟩
    · rfl
    · simp only [getline_last hl hne]
      rw [if_neg (by simp), if_neg (by rw [stop _ hn]; simp)]
    · simp only [getline_line hl]
      rw [if_neg (by simp [openText]), if_neg (by rw [stop _ hn]; simp)]
  | cons e es ih =>
    obtain ⟨fuel, rfl⟩ : ∃ k, fuel = k + 1 := ⟨fuel - 1, by simp at hf; omega⟩
    obtain ⟨h1, h2⟩ := h e (by simp)
    rw [List.map_cons, unlines_cons_append]
    unfold energiesLoop
    simp only [getline_line (text_isLine spin h1)]
    rw [if_neg (by simp [openText]), if_pos (text_any spin h1), text_occ spin h1]
    obtain ⟨ws, hw1, hw2⟩ := text_split spin h1 h2
    rw [hw2]
    simp only [Res.ok_bind]
    have hd : (ws ++ e.2.map (·.2)).drop 4 = e.2.map (·.2) := by rw [← hw1]; simp
    rw [hd]
    have hpush : pushEnergies spin.name e.1 (e.2.map (·.2)) (withEnergies d spin done) = withEnergies d spin (done ++ [e]) := by
      unfold withEnergies
      rw [pushEnergies_eq, energies_append, occupied_append]
      obtain ⟨o, f⟩ := e
      cases o <;> simp [energies, occupied]
    rw [hpush]
    rw [show tellg (openText (unlines (es.map (EnergyLine.text spin)) ++ rest))
      = (some (unlines (es.map (EnergyLine.text spin)) ++ rest), openText (unlines (es.map (EnergyLine.text spin)) ++ rest)) from rfl]
    have hfid := ih (fun x hx => h x (by simp [hx])) (done ++ [e]) fuel (by simp at hf; omega)
      (some (unlines (es.map (EnergyLine.text spin)) ++ rest)) (by rintro rfl; rfl) (EnergyLine.text spin e)
    simpa using hfid

/-- Where the stream is after a table of energies followed by `rest`. -/
def afterTable (rest : Str) : Stream := if rest = [] then ⟨[], false, true⟩ else openText rest

theorem seekg_after (rest : Str) : seekg (getline (openText rest) []).2 (some rest) = afterTable rest := by
  unfold afterTable
  rcases text_cases rest with rfl | ⟨hne, hl⟩ | ⟨l, r, hl, rfl⟩
  · rfl
  · rw [getline_last hl hne, if_neg hne]; rfl
  · rw [getline_line hl, if_neg (by simp)]; rfl

/-- The reader of energy tables, started at the first line of the table. -/
theorem readOrbEnergies_table (spin : Spin) (es : List EnergyLine) (h : EnergyTable es) (rest : Str) (hr : NextOk spin rest)
    (d : LogData α) (fid : Stream) (hfid : fid.fail = false) :
    Ends (fun n => readOrbEnergies spin.name n ⟨seekg fid (some (unlines (es.map (EnergyLine.text spin)) ++ rest)),
        some (unlines (es.map (EnergyLine.text spin)) ++ rest), d⟩)
      (.ok ⟨afterTable rest, some rest, withEnergies d spin es⟩) := by
  refine ⟨by simp, es.length + 1, fun fuel hf => ?_⟩
  have h1 := energiesLoop_table spin es h.1 rest hr d [] fuel hf
    (some (unlines (es.map (EnergyLine.text spin)) ++ rest)) (by
      obtain ⟨e, es', he, -⟩ := h.2; rintro rfl; simp at he) []
  unfold readOrbEnergies
  have hs : seekg fid (some (unlines (es.map (EnergyLine.text spin)) ++ rest)) =
      openText (unlines (es.map (EnergyLine.text spin)) ++ rest) := by
    unfold seekg; rw [hfid]; rfl
  rw [hs]
  have h0 : ({ d with homo := d.homo.set spin.name 0, oe := d.oe.set spin.name [] } : LogData α) = withEnergies d spin [] := rfl
  simp only [h0, h1, Res.ok_bind, List.nil_append, seekg_after]

end Verif.Readers
