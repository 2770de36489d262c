import Verif.Props.Strings
/-
Properties C95 (the remaining string helpers) and C96 (what the last-occurrence helpers do for every pattern).
-/
namespace Verif.Strings

/-! ### C95 -/

private theorem set_mid (t gap rest : List Char) (g c : Char) :
    (t ++ g :: gap ++ rest).set t.length c = t ++ c :: gap ++ rest := by
  simp [List.set_append]

/-- One stretch of the loop: `t` is written, `gap` are positions already read but not yet overwritten, `s` is still to be
read. -/
private theorem removeSpaceLoop_ok (rest : List Char) : ∀ (s t gap : List Char) (fuel : Nat), (∀ c ∈ s, c ≠ Char.ofNat 0) →
    s.length < fuel →
    removeSpaceLoop fuel (t ++ gap ++ s ++ Char.ofNat 0 :: rest) (t.length + gap.length) t.length =
      .ok (t ++ s.filter (· ≠ ' ') ++ Char.ofNat 0 ::
        (gap ++ s ++ Char.ofNat 0 :: rest).drop ((s.filter (· ≠ ' ')).length + 1)) := by
  intro s
  induction s with
  | nil =>
    intro t gap fuel _ hf
    match fuel, hf with
    | fuel + 1, _ =>
      unfold removeSpaceLoop
      have hget : (t ++ gap ++ [] ++ Char.ofNat 0 :: rest)[t.length + gap.length]? = some (Char.ofNat 0) := by
        rw [List.append_nil, List.getElem?_append_right (by simp)]
        simp
      rw [hget]
      have hne : Char.ofNat 0 ≠ ' ' := by decide
      simp only [ne_eq, hne, not_false_eq_true, if_true]
      congr 1
      cases gap with
      | nil => simp [List.set_append]
      | cons g gap =>
        rw [List.append_nil, set_mid]; simp
  | cons c s ih =>
    intro t gap fuel hs hf
    match fuel, hf with
    | fuel + 1, hf =>
      have hf' : s.length < fuel := by simpa using hf
      have hs' : ∀ d ∈ s, d ≠ Char.ofNat 0 := fun d hd => hs d (by simp [hd])
      have hc0 : c ≠ Char.ofNat 0 := hs c (by simp)
      unfold removeSpaceLoop
      have hget : (t ++ gap ++ c :: s ++ Char.ofNat 0 :: rest)[t.length + gap.length]? = some c := by
        rw [List.append_assoc, List.getElem?_append_right (by simp)]
        simp
      rw [hget]
      simp only [if_neg hc0]
      by_cases hc : c = ' '
      · subst hc
        have hne : ¬ (' ' ≠ ' ') := by simp
        simp only [if_neg hne]
        have := ih t (gap ++ [' ']) fuel hs' hf'
        simp only [List.length_append, List.length_cons, List.length_nil] at this
        have e1 : t ++ (gap ++ [' ']) ++ s ++ Char.ofNat 0 :: rest = t ++ gap ++ ' ' :: s ++ Char.ofNat 0 :: rest := by simp
        rw [e1, show t.length + (gap.length + (0 + 1)) = t.length + gap.length + 1 by omega] at this
        rw [this]
        simp
      · simp only [ne_eq, hc, not_false_eq_true, if_true]
        have hfil : (c :: s).filter (· ≠ ' ') = c :: s.filter (· ≠ ' ') := by simp [hc]
        rw [hfil]
        cases gap with
        | nil =>
          have := ih (t ++ [c]) [] fuel hs' hf'
          have e1 : (t ++ [] ++ c :: s ++ Char.ofNat 0 :: rest).set t.length c =
              t ++ [c] ++ [] ++ s ++ Char.ofNat 0 :: rest := by simp [List.set_append]
          rw [e1]
          simp only [List.length_append, List.length_cons, List.length_nil, Nat.add_zero, Nat.zero_add] at this ⊢
          rw [this]; simp
        | cons g gap =>
          have := ih (t ++ [c]) (gap ++ [c]) fuel hs' hf'
          have e1 : (t ++ g :: gap ++ c :: s ++ Char.ofNat 0 :: rest).set t.length c =
              t ++ [c] ++ (gap ++ [c]) ++ s ++ Char.ofNat 0 :: rest := by
            rw [List.append_assoc (t ++ g :: gap), set_mid]; simp
          rw [e1]
          simp only [List.length_append, List.length_cons, List.length_nil, Nat.zero_add] at this ⊢
          rw [show t.length + (gap.length + 1) + 1 = t.length + 1 + (gap.length + 1) by omega, this]
          simp

/-- C95, `removeSpace`: the C string `s` in a buffer (with `rest` behind its terminator) becomes the C string of the
characters of `s` that are not blanks, in their order; everything behind the new terminator is as before. -/
theorem C95_removeSpace (s rest : List Char) (hs : ∀ c ∈ s, c ≠ Char.ofNat 0) :
    removeSpace (s ++ Char.ofNat 0 :: rest) =
      .ok (s.filter (· ≠ ' ') ++ Char.ofNat 0 :: (s ++ Char.ofNat 0 :: rest).drop ((s.filter (· ≠ ' ')).length + 1)) := by
  have := removeSpaceLoop_ok rest s [] [] ((s ++ Char.ofNat 0 :: rest).length + 1) hs (by simp; omega)
  simpa [removeSpace] using this

example : removeSpace (lit "a b c" ++ [Char.ofNat 0]) =
    .ok (lit "abc" ++ [Char.ofNat 0] ++ lit "c" ++ [Char.ofNat 0]) := by decide

/-- C95, `isAlphabetical`: true exactly for the nonempty strings of letters `A-Z` (codes 65 to 90) and `a-z` (97 to 122). -/
theorem C95_isAlphabetical (s : Str) :
    isAlphabetical s = true ↔ s ≠ [] ∧ ∀ c ∈ s, (65 ≤ c.toNat ∧ c.toNat ≤ 90) ∨ (97 ≤ c.toNat ∧ c.toNat ≤ 122) := by
  have hle : ∀ a b : Char, (a ≤ b) ↔ a.toNat ≤ b.toNat := fun a b => Iff.rfl
  have hz : 'z'.toNat = 122 := rfl
  have ha : 'a'.toNat = 97 := rfl
  have hA : 'A'.toNat = 65 := rfl
  have hZ : 'Z'.toNat = 90 := rfl
  unfold isAlphabetical
  rw [Bool.and_eq_true, List.all_eq_true]
  constructor
  · rintro ⟨h1, h2⟩
    refine ⟨by intro e; subst e; simp at h2, fun c hc => ?_⟩
    have := h1 c hc
    unfold isAlpha at this
    simp only [Bool.or_eq_true, Bool.and_eq_true, decide_eq_true_eq, hle, hz, ha, hA, hZ] at this
    omega
  · rintro ⟨h1, h2⟩
    refine ⟨fun c hc => ?_, by cases s <;> simp_all⟩
    have := h2 c hc
    unfold isAlpha
    simp only [Bool.or_eq_true, Bool.and_eq_true, decide_eq_true_eq, hle, hz, ha, hA, hZ]
    omega

example : isAlphabetical (lit "Fe") = true ∧ isAlphabetical (lit "C1") = false ∧ isAlphabetical [] = false := by decide

/-- C95, `ltrimmed` and `rtrimmed`: exactly the white space at the front, or at the end, is removed. -/
theorem C95_one_sided (s : Str) :
    (∃ l, s = l ++ ltrimmed s ∧ (∀ c ∈ l, White c = true) ∧ ∀ c t, ltrimmed s = c :: t → White c = false) ∧
    (∃ r, s = rtrimmed s ++ r ∧ (∀ c ∈ r, White c = true) ∧ ∀ c t, rtrimmed s = t ++ [c] → White c = false) := by
  constructor
  · obtain ⟨e1, e2, e3⟩ := span_space isSpace s
    refine ⟨_, e1, e2, fun c t h => ?_⟩
    rcases e3 with e3 | ⟨d, u, e3, hd⟩
    · have : ltrimmed s = [] := e3
      rw [this] at h; cases h
    · have : ltrimmed s = d :: u := e3
      rw [this] at h; cases h; exact hd
  · obtain ⟨e1, e2, e3⟩ := span_space isSpace s.reverse
    refine ⟨(s.reverse.takeWhile isSpace).reverse, ?_, fun c hc => e2 c (List.mem_reverse.1 hc), fun c t h => ?_⟩
    · have := congrArg List.reverse e1
      rw [List.reverse_reverse, List.reverse_append] at this
      exact this
    · rcases e3 with e3 | ⟨d, u, e3, hd⟩
      · have : rtrimmed s = [] := by unfold rtrimmed rtrim; rw [e3]; rfl
        rw [this] at h; simp at h
      · have e4 : rtrimmed s = u.reverse ++ [d] := by unfold rtrimmed rtrim; rw [e3]; simp
        rw [e4] at h
        have := (List.append_inj' h rfl).2
        cases this; exact hd

example : ltrimmed (lit " \ta b ") = (lit "a b ") ∧ rtrimmed (lit " a b \n") = (lit " a b") := by decide

/-! ### C96 -/

/-- C96: for every pattern, the last-occurrence helpers cut at the last character of the string that is *one of* the
characters of the pattern. -/
theorem C96_last_of (s occ : Str) (hs : Fits s) :
    (∃ b c a, s = b ++ c :: a ∧ c ∈ occ ∧ (∀ d ∈ a, d ∉ occ) ∧
      grabStrBeforeLastOccurance s occ = .ok b ∧ grabStrAfterLastOccurance s occ = .ok a ∧
      grabStrBeforeLastOccuranceInclusive s occ = .ok (b ++ [c]) ∧
      grabStrAfterLastOccuranceInclusive s occ = .ok (c :: a)) ∨
    ((∀ d ∈ s, d ∉ occ) ∧
      grabStrBeforeLastOccurance s occ = .ok s ∧ grabStrAfterLastOccurance s occ = .ok [] ∧
      grabStrBeforeLastOccuranceInclusive s occ = .ok s ∧ grabStrAfterLastOccuranceInclusive s occ = .ok []) := by
  cases hf : findLastOf occ s with
  | none =>
    right
    have h := findLastOf_none hf
    exact ⟨fun d hd => h d hd, C47_last_none s occ (fun c hc hcs => h c hcs hc)⟩
  | some n =>
    left
    obtain ⟨d, h1, e, h3, h4⟩ := findLastOf_some hf
    have hdrop : s.drop n = d :: s.drop (n + 1) := by
      have := congrArg (List.drop n) e
      rw [List.drop_append_of_le_length (by simp; omega)] at this
      simpa using this
    refine ⟨s.take n, d, s.drop (n + 1), by simpa using e, h1, h4, ?_, ?_, ?_, ?_⟩
    · unfold grabStrBeforeLastOccurance; rw [hf]; simp only; rw [substr_ok (by omega)]; simp
    · unfold grabStrAfterLastOccurance; rw [hf]; simp only; rw [substr_npos hs (by omega)]
    · unfold grabStrBeforeLastOccuranceInclusive; rw [hf]; simp only; rw [substr_ok (by omega)]
      simp only [List.drop_zero]
      rw [List.take_add_one]
      congr 1
      have : s[n]? = some d := by
        have := congrArg List.head? hdrop
        simpa [List.head?_drop] using this
      rw [this]; rfl
    · unfold grabStrAfterLastOccuranceInclusive; rw [hf]; simp only; rw [substr_npos hs (by omega), hdrop]

example : grabStrAfterLastOccurance (lit "a.b/c-d") (lit "./") = .ok (lit "c-d") := by decide

end Verif.Strings
