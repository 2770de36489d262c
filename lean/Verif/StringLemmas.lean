import Verif.Strings
import Verif.Spec.Strings
import Mathlib.Tactic.Tauto
import Mathlib.Tactic.ByContra
/-
Lemmas about the string model.
-/
namespace Verif.Strings

theorem substr_ok {s : Str} {pos len : Nat} (h : pos ≤ s.length) : substr s pos len = .ok ((s.drop pos).take len) := by
  unfold substr; rw [if_neg (by omega)]

theorem substr_npos {s : Str} {pos : Nat} (hs : Fits s) (h : pos ≤ s.length) : substr s pos npos = .ok (s.drop pos) := by
  rw [substr_ok h, List.take_of_length_le]
  unfold Fits at hs; unfold npos; simp; omega

theorem substr_tail {s : Str} {pos len : Nat} (h : pos ≤ s.length) (hl : s.length - pos ≤ len) : substr s pos len = .ok (s.drop pos) := by
  rw [substr_ok h, List.take_of_length_le]; simp; omega

theorem find_some {occ s : Str} {n : Nat} (h : find occ s = some n) :
    s = s.take n ++ occ ++ s.drop (n + occ.length) ∧ ∀ x y, s = x ++ occ ++ y → n ≤ x.length := by
  induction s generalizing n with
  | nil =>
    unfold find at h
    split at h
    · next ho => subst ho; simp at h; subst h; simp
    · cases h
  | cons c s ih =>
    unfold find at h
    split at h
    · next hp =>
      simp at h; subst h
      obtain ⟨y, hy⟩ := List.isPrefixOf_iff_prefix.1 hp
      constructor
      · rw [← hy]; simp
      · intros; omega
    · next hp =>
      cases hf : find occ s with
      | none => rw [hf] at h; cases h
      | some k =>
        rw [hf] at h
        simp at h; subst h
        obtain ⟨e1, e2⟩ := ih hf
        constructor
        · have : k + 1 + occ.length = (k + occ.length) + 1 := by omega
          rw [this]
          simp only [List.take_succ_cons, List.drop_succ_cons, List.cons_append]
          exact congrArg (c :: ·) e1
        · intro x y hxy
          cases x with
          | nil =>
            exfalso; apply hp
            rw [hxy]
            exact List.isPrefixOf_iff_prefix.2 ⟨y, by simp⟩
          | cons a x =>
            simp only [List.cons_append, List.cons.injEq] at hxy
            have := e2 x y (by simpa using hxy.2)
            simp; omega

theorem find_none {occ s : Str} (h : find occ s = none) : ∀ x y, s ≠ x ++ occ ++ y := by
  induction s with
  | nil =>
    intro x y e
    unfold find at h
    split at h
    · cases h
    · next ho =>
      have := congrArg List.length e
      simp at this
      exact ho (List.eq_nil_of_length_eq_zero (by omega))
  | cons c s ih =>
    unfold find at h
    split at h
    · cases h
    · next hp =>
      have hf : find occ s = none := by
        cases hf : find occ s with
        | none => rfl
        | some k => rw [hf] at h; cases h
      intro x y e
      cases x with
      | nil => apply hp; rw [e]; exact List.isPrefixOf_iff_prefix.2 ⟨y, by simp⟩
      | cons a x =>
        simp only [List.cons_append, List.cons.injEq] at e
        exact ih hf x y (by simpa using e.2)

theorem find_some_le {occ s : Str} {n : Nat} (h : find occ s = some n) : n + occ.length ≤ s.length := by
  have := congrArg List.length (find_some h).1
  simp at this
  by_cases hn : n ≤ s.length
  · omega
  · have : n ≤ s.length := by
      have := (find_some h).2 (s.take n) _ (find_some h).1
      simp at this; omega
    omega

theorem find_eq_some {occ x y : Str} (h : ∀ x' y', x ++ occ ++ y = x' ++ occ ++ y' → x.length ≤ x'.length) :
    find occ (x ++ occ ++ y) = some x.length := by
  cases hf : find occ (x ++ occ ++ y) with
  | none => exact absurd rfl (find_none hf x y)
  | some n =>
    obtain ⟨e1, e2⟩ := find_some hf
    have h1 := e2 x y rfl
    have h2 := h _ _ e1
    simp only [List.length_take] at h2
    congr 1; omega

theorem found_iff {s sub : Str} : foundSubStrInStr s sub = true ↔ ∃ x y, s = x ++ sub ++ y := by
  unfold foundSubStrInStr
  cases hf : find sub s with
  | none => simp; intro x y; simpa using find_none hf x y
  | some n => simp; exact ⟨_, _, by simpa using (find_some hf).1⟩

theorem findFirstOf_some {chars s : Str} {n : Nat} (h : findFirstOf chars s = some n) :
    ∃ c, c ∈ chars ∧ s = s.take n ++ c :: s.drop (n + 1) ∧ n < s.length ∧ ∀ x ∈ s.take n, x ∉ chars := by
  unfold findFirstOf at h
  rw [List.findIdx?_eq_some_iff_getElem] at h
  obtain ⟨hn, h1, h2⟩ := h
  refine ⟨s[n], by simpa using h1, ?_, hn, ?_⟩
  · conv => lhs; rw [← List.take_append_drop n s, List.drop_eq_getElem_cons hn]
  · intro x hx
    obtain ⟨i, hi, rfl⟩ := List.mem_iff_getElem.1 hx
    simp at hi
    have := h2 i (by omega)
    simpa using this

theorem findFirstOf_none {chars s : Str} (h : findFirstOf chars s = none) : ∀ x ∈ s, x ∉ chars := by
  unfold findFirstOf at h
  rw [List.findIdx?_eq_none_iff] at h
  intro x hx
  simpa using h x hx

theorem findLastOf_some {chars s : Str} {n : Nat} (h : findLastOf chars s = some n) :
    ∃ c, c ∈ chars ∧ s = s.take n ++ c :: s.drop (n + 1) ∧ n < s.length ∧ ∀ x ∈ s.drop (n + 1), x ∉ chars := by
  unfold findLastOf at h
  cases hf : s.reverse.findIdx? (fun c => chars.contains c) with
  | none => rw [hf] at h; cases h
  | some k =>
    rw [hf] at h
    simp only [Option.map_some, Option.some.injEq] at h
    obtain ⟨c, h1, h2, h3, h4⟩ := findFirstOf_some (chars := chars) (s := s.reverse) (n := k) hf
    simp only [List.length_reverse] at h3
    have e := congrArg List.reverse h2
    simp only [List.reverse_reverse, List.reverse_append, List.reverse_cons, List.append_assoc, List.singleton_append] at e
    have e1 : (s.reverse.drop (k + 1)).reverse = s.take n := by
      rw [List.drop_reverse, List.reverse_reverse]; congr 1; omega
    have e2 : (s.reverse.take k).reverse = s.drop (n + 1) := by
      rw [List.take_reverse, List.reverse_reverse]; congr 1; omega
    rw [e1, e2] at e
    refine ⟨c, h1, by simpa using e, by omega, ?_⟩
    intro x hx
    apply h4
    rw [← e2] at hx
    simpa using hx

theorem findLastOf_none {chars s : Str} (h : findLastOf chars s = none) : ∀ x ∈ s, x ∉ chars := by
  unfold findLastOf at h
  cases hf : s.reverse.findIdx? (fun c => chars.contains c) with
  | none =>
    intro x hx
    exact findFirstOf_none (s := s.reverse) hf x (by simpa using hx)
  | some k => rw [hf] at h; cases h

/-! ### splitSt -/

theorem tokens_nonempty (acc s : Str) : ∀ t ∈ tokens acc s, t ≠ [] := by
  induction s generalizing acc with
  | nil => unfold tokens; split <;> simp_all
  | cons c s ih =>
    unfold tokens
    split
    · split
      · exact ih []
      · intro t ht
        rcases List.mem_cons.1 ht with rfl | ht
        · simpa
        · exact ih [] t ht
    · exact ih _

theorem splitSt_eq (s : Str) : splitSt s = tokens [] s := by
  unfold splitSt
  rw [List.filter_eq_self]
  intro t ht
  simpa using tokens_nonempty [] s t ht

theorem tokens_word (w : Str) (hw : ∀ c ∈ w, isSpace c = false) (acc s : Str) :
    tokens acc (w ++ s) = tokens (w.reverse ++ acc) s := by
  induction w generalizing acc with
  | nil => rfl
  | cons c w ih =>
    rw [List.cons_append, tokens, if_neg (by simp [hw c (by simp)]), ih (fun x hx => hw x (by simp [hx]))]
    simp

theorem tokens_space (w : Str) (hw : ∀ c ∈ w, isSpace c = true) (s : Str) : tokens [] (w ++ s) = tokens [] s := by
  induction w with
  | nil => rfl
  | cons c w ih =>
    rw [List.cons_append, tokens, if_pos (hw c (by simp)), if_pos rfl, ih (fun x hx => hw x (by simp [hx]))]

theorem tokens_of_pieces (ps : List (Str × Str)) (trail : Str)
    (h1 : ∀ p ∈ ps, (∀ c ∈ p.1, isSpace c = true) ∧ p.2 ≠ [] ∧ ∀ c ∈ p.2, isSpace c = false)
    (h2 : ∀ p ∈ ps.tail, p.1 ≠ []) (h3 : ∀ c ∈ trail, isSpace c = true) :
    tokens [] (ps.flatMap (fun p => p.1 ++ p.2) ++ trail) = ps.map (·.2) := by
  induction ps with
  | nil =>
    simp only [List.flatMap_nil, List.nil_append, List.map_nil]
    have := tokens_space trail h3 []
    rw [List.append_nil] at this
    rw [this]; rfl
  | cons p ps ih =>
    obtain ⟨a1, a2, a3⟩ := h1 p (by simp)
    rw [List.flatMap_cons, List.append_assoc, List.append_assoc, tokens_space _ a1, tokens_word _ a3, List.append_nil]
    have ih' := ih (fun q hq => h1 q (by simp [hq])) (fun q hq => h2 q (by simpa using List.mem_of_mem_tail hq))
    have hne : p.2.reverse ≠ [] := by simpa using a2
    rw [List.map_cons]
    -- the remaining text is empty or begins with white space
    have key : ∀ s : Str, (s = [] ∨ ∃ c s', s = c :: s' ∧ isSpace c = true) → tokens p.2.reverse s = p.2 :: tokens [] s := by
      rintro s (rfl | ⟨c, s', rfl, hc⟩)
      · rw [tokens, if_neg hne, List.reverse_reverse]; simp [tokens]
      · rw [tokens, if_pos hc, if_neg hne, List.reverse_reverse]
        conv => rhs; rw [tokens, if_pos hc, if_pos rfl]
    rw [key, ih']
    cases ps with
    | nil =>
      cases trail with
      | nil => left; rfl
      | cons c t => right; exact ⟨c, t, rfl, h3 c (by simp)⟩
    | cons q qs =>
      have hq := h2 q (by simp)
      obtain ⟨b1, -, -⟩ := h1 q (by simp)
      cases hq1 : q.1 with
      | nil => exact absurd hq1 hq
      | cons c t =>
        right
        refine ⟨c, _, by rw [List.flatMap_cons, hq1]; rfl, b1 c (by rw [hq1]; simp)⟩

theorem span_space (p : Char → Bool) (s : Str) :
    s = s.takeWhile p ++ s.dropWhile p ∧ (∀ c ∈ s.takeWhile p, p c = true) ∧
      (s.dropWhile p = [] ∨ ∃ c t, s.dropWhile p = c :: t ∧ p c = false) := by
  refine ⟨List.takeWhile_append_dropWhile.symm, fun c hc => List.all_eq_true.1 (List.all_takeWhile (p := p) (l := s)) c hc, ?_⟩
  cases h : s.dropWhile p with
  | nil => left; rfl
  | cons c t =>
    right
    refine ⟨c, t, rfl, ?_⟩
    have := List.head_dropWhile_not p (l := s) (by rw [h]; simp)
    simpa [h] using this

theorem layout_exists (s : Str) : ∃ ts, Layout s ts := by
  have : ∀ n : Nat, ∀ s : Str, s.length ≤ n → ∃ (ps : List (Str × Str)) (trail : Str),
      s = ps.flatMap (fun p => p.1 ++ p.2) ++ trail ∧
      (∀ p ∈ ps, (∀ c ∈ p.1, isSpace c = true) ∧ p.2 ≠ [] ∧ ∀ c ∈ p.2, isSpace c = false) ∧
      (∀ p ∈ ps.tail, p.1 ≠ []) ∧ (∀ c ∈ trail, isSpace c = true) ∧
      ((∃ c t, s = c :: t ∧ isSpace c = true) → ∀ p ∈ ps, p.1 ≠ []) := by
    intro n
    induction n with
    | zero =>
      intro s hs
      have : s = [] := List.eq_nil_of_length_eq_zero (by omega)
      exact ⟨[], [], by simp [this], by simp, by simp, by simp, by simp⟩
    | succ n ih =>
      intro s hs
      obtain ⟨e1, e2, e3⟩ := span_space isSpace s
      generalize hw : s.takeWhile isSpace = w at *
      generalize hr : s.dropWhile isSpace = r at *
      rcases e3 with rfl | ⟨c, t, rfl, hc⟩
      · exact ⟨[], w, by simpa using e1, by simp, by simp, e2, by simp⟩
      · obtain ⟨f1, f2, f3⟩ := span_space (fun c => !isSpace c) (c :: t)
        generalize hx : (c :: t).takeWhile (fun c => !isSpace c) = x at *
        generalize hy : (c :: t).dropWhile (fun c => !isSpace c) = y at *
        have hxne : x ≠ [] := by rw [← hx, List.takeWhile_cons, if_pos (by simp [hc])]; simp
        have hlen := congrArg List.length f1
        have hlen2 := congrArg List.length e1
        have hxl : 1 ≤ x.length := List.length_pos_iff.2 hxne
        simp only [List.length_append, List.length_cons] at hlen hlen2
        obtain ⟨ps, trail, g1, g2, g3, g4, g5⟩ := ih y (by omega)
        refine ⟨(w, x) :: ps, trail, ?_, ?_, ?_, g4, ?_⟩
        · rw [List.flatMap_cons, e1, f1, List.append_assoc, List.append_assoc, ← g1]
        · intro p hp
          rcases List.mem_cons.1 hp with rfl | hp
          · exact ⟨e2, hxne, fun c hc => by simpa using f2 c hc⟩
          · exact g2 p hp
        · intro p hp
          simp only [List.tail_cons] at hp
          rcases f3 with rfl | ⟨d, u, rfl, hd⟩
          · exfalso
            have : ps = [] := by
              cases ps with
              | nil => rfl
              | cons q qs =>
                have hl := congrArg List.length g1
                have := (g2 q (by simp)).2.1
                have := List.length_pos_iff.2 this
                simp at hl; omega
            rw [this] at hp; cases hp
          · exact g5 ⟨d, u, rfl, by simpa using hd⟩ p hp
        · rintro ⟨d, u, rfl, hd⟩ p hp
          rcases List.mem_cons.1 hp with rfl | hp
          · simp only [ne_eq]; rw [← hw, List.takeWhile_cons, if_pos hd]; simp
          · rcases f3 with rfl | ⟨d', u', rfl, hd'⟩
            · exfalso
              have : ps = [] := by
                cases ps with
                | nil => rfl
                | cons q qs =>
                  have hl := congrArg List.length g1
                  have := (g2 q (by simp)).2.1
                  have := List.length_pos_iff.2 this
                  simp at hl; omega
              rw [this] at hp; cases hp
            · exact g5 ⟨d', u', rfl, by simpa using hd'⟩ p hp
  obtain ⟨ps, trail, a1, a2, a3, a4, -⟩ := this s.length s (Nat.le_refl _)
  exact ⟨ps.map (·.2), ⟨ps, trail, a1, rfl, a2, a3, a4⟩⟩

theorem Layout.split {s : Str} {ts : List Str} (h : Layout s ts) : splitSt s = ts := by
  obtain ⟨ps, trail, rfl, rfl, h1, h2, h3⟩ := h.exists_pieces
  rw [splitSt_eq, tokens_of_pieces ps trail h1 h2 h3]

theorem layout_splitSt (s : Str) : Layout s (splitSt s) := by
  obtain ⟨ts, h⟩ := layout_exists s
  rw [h.split]; exact h

end Verif.Strings
