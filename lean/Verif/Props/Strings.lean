import Verif.StringLemmas
/-
Properties C42-C47: string helpers.
-/
namespace Verif.Strings

/-! ### C42 -/

/-- C42: the input is white space and words in alternation, and `splitSt` returns exactly the words. -/
theorem C42_layout (s : Str) : Layout s (splitSt s) := layout_splitSt s

/-- C42 (round trip): words laid out with white space between them are returned unchanged. -/
theorem C42_roundtrip {s : Str} {ts : List Str} (h : Layout s ts) : splitSt s = ts := h.split

private theorem filter_space {w : Str} (h : ∀ c ∈ w, isSpace c = true) : w.filter (fun c => !isSpace c) = [] := by
  rw [List.filter_eq_nil_iff]; intro c hc; simp [h c hc]

private theorem filter_word {w : Str} (h : ∀ c ∈ w, isSpace c = false) : w.filter (fun c => !isSpace c) = w := by
  rw [List.filter_eq_self]; intro c hc; simp [h c hc]

/-- C42: no character is lost, no token is empty or contains white space. -/
theorem C42_tokens (s : Str) :
    (splitSt s).flatten = s.filter (fun c => !White c) ∧ ∀ t ∈ splitSt s, t ≠ [] ∧ ∀ c ∈ t, White c = false := by
  change (splitSt s).flatten = s.filter (fun c => !isSpace c) ∧ ∀ t ∈ splitSt s, t ≠ [] ∧ ∀ c ∈ t, isSpace c = false
  obtain ⟨ps, trail, e1, e2, h1, h2, h3⟩ := (layout_splitSt s).exists_pieces
  rw [e2]
  constructor
  · have : ∀ ps : List (Str × Str), (∀ p ∈ ps, (∀ c ∈ p.1, isSpace c = true) ∧ p.2 ≠ [] ∧ ∀ c ∈ p.2, isSpace c = false) →
        (ps.map (·.2)).flatten = (ps.flatMap (fun p => p.1 ++ p.2)).filter (fun c => !isSpace c) := by
      intro ps
      induction ps with
      | nil => intro _; rfl
      | cons p ps ih =>
        intro h
        obtain ⟨a, -, b⟩ := h p (by simp)
        rw [List.map_cons, List.flatten_cons, List.flatMap_cons, List.filter_append, List.filter_append, filter_space a,
          filter_word b, ih (fun q hq => h q (by simp [hq]))]
        simp
    rw [e1, List.filter_append, filter_space h3, List.append_nil, this ps h1]
  · intro t ht
    obtain ⟨p, hp, rfl⟩ := List.mem_map.1 ht
    exact (h1 p hp).2

example : splitSt (lit "  ab\tc  def ") = [(lit "ab"), (lit "c"), (lit "def")] := by decide

/-! ### C43 -/

private theorem lastStringLoop_ok : ∀ (fuel : Nat) (line : Str), line.length < fuel → ∃ d f, lastStringLoop fuel line = .ok f ∧
    line = d ++ f ∧ (∀ c ∈ f, c ≠ '/') ∧ (d = [] ∨ ∃ d', d = d' ++ ['/']) := by
  intro fuel
  induction fuel with
  | zero => intro line h; omega
  | succ fuel ih =>
    intro line h
    unfold lastStringLoop
    cases hf : findFirstOf pathSep line with
    | none =>
      refine ⟨[], line, rfl, rfl, ?_, Or.inl rfl⟩
      intro c hc e
      exact findFirstOf_none hf c hc (by rw [e]; decide)
    | some n =>
      obtain ⟨c, h1, h2, h3, h4⟩ := findFirstOf_some hf
      simp only
      rw [substr_tail (by omega) (by omega)]
      simp only [Res.ok_bind]
      have hc : c = '/' := by simpa [pathSep] using h1
      obtain ⟨d, f, e1, e2, e3, e4⟩ := ih (line.drop (n + 1)) (by simp; omega)
      refine ⟨line.take n ++ '/' :: d, f, e1, ?_, e3, ?_⟩
      · conv => lhs; rw [h2, hc, e2]
        simp
      · right
        rcases e4 with rfl | ⟨d', rfl⟩
        · exact ⟨line.take n, rfl⟩
        · exact ⟨line.take n ++ '/' :: d', by simp⟩

/-- `lastStringInPath` never runs out of fuel. -/
theorem lastStringInPath_ok (s : Str) : ∃ d f, lastStringInPath s = .ok f ∧ s = d ++ f ∧ (∀ c ∈ f, c ≠ '/') ∧
    (d = [] ∨ ∃ d', d = d' ++ ['/']) := lastStringLoop_ok _ s (by omega)

private theorem getPathLoop_ok (input : Str) : ∀ (fuel : Nat) (pre line : Str), line.length < fuel → input = pre ++ line →
    ∃ d f, getPathLoop input fuel line pre.length = .ok (pre ++ d) ∧ lastStringLoop fuel line = .ok f ∧ line = d ++ f := by
  intro fuel
  induction fuel with
  | zero => intro pre line h; omega
  | succ fuel ih =>
    intro pre line h hi
    unfold getPathLoop lastStringLoop
    cases hf : findFirstOf pathSep line with
    | none =>
      refine ⟨[], line, ?_, rfl, rfl⟩
      simp only
      rw [substr_ok (by omega)]
      simp only [Res.ok_bind]
      rw [substr_ok (by omega), hi]; simp
    | some n =>
      obtain ⟨c, h1, h2, h3, h4⟩ := findFirstOf_some hf
      simp only
      rw [substr_tail (by omega) (by omega)]
      simp only [Res.ok_bind]
      rw [substr_ok (by omega)]
      simp only [Res.ok_bind]
      obtain ⟨d, f, e1, e2, e3⟩ := ih (pre ++ line.take (n + 1)) (line.drop (n + 1)) (by simp; omega)
        (by rw [hi, List.append_assoc, List.take_append_drop])
      have hl : (pre ++ line.take (n + 1)).length = pre.length + (n + 1) := by simp; omega
      rw [hl] at e1
      refine ⟨line.take (n + 1) ++ d, f, by rw [e1]; simp, e2, ?_⟩
      rw [List.append_assoc, ← e3, List.take_append_drop]

/-- C43: `getPath(s) + lastStringInPath(s) = s`, the file name has no separator, the path is empty or ends in one. -/
theorem C43_path (s : Str) : ∃ d f, getPath s = .ok d ∧ lastStringInPath s = .ok f ∧ s = d ++ f ∧ (∀ c ∈ f, c ≠ '/') ∧
    (d = [] ∨ ∃ d', d = d' ++ ['/']) := by
  obtain ⟨d, f, e1, e2, e3⟩ := getPathLoop_ok s (s.length + 1) [] s (by omega) rfl
  obtain ⟨d', f', e1', e2', e3', e4'⟩ := lastStringInPath_ok s
  have hf : f = f' := Res.ok.inj (e2.symm.trans e1')
  subst hf
  have hd : d = d' := List.append_cancel_right (e3.symm.trans e2')
  subst hd
  exact ⟨d, f, e1, e2, e3, e3', e4'⟩

/-- C43 (uniqueness): the decomposition is determined by these conditions. -/
theorem C43_path_unique {s d f : Str} (e : s = d ++ f) (hf : ∀ c ∈ f, c ≠ '/') (hd : d = [] ∨ ∃ d', d = d' ++ ['/']) :
    getPath s = .ok d ∧ lastStringInPath s = .ok f := by
  obtain ⟨d', f', e1, e2, e3, h1, h2⟩ := C43_path s
  have key : ∀ {d1 f1 d2 f2 : Str}, d1 ++ f1 = d2 ++ f2 → (∀ c ∈ f1, c ≠ '/') → (d2 = [] ∨ ∃ d', d2 = d' ++ ['/']) →
      d2.length ≤ d1.length := by
    intro d1 f1 d2 f2 h hf hd
    rcases hd with rfl | ⟨x, rfl⟩
    · simp
    · by_contra hcon
      have hl : x.length + 1 > d1.length := by simpa using hcon
      obtain ⟨a, ha⟩ : ∃ a, x = d1 ++ a := by
        have : d1 <+: (x ++ ['/']) ++ f2 := ⟨f1, h⟩
        have h2 : x <+: (x ++ ['/']) ++ f2 := ⟨'/' :: f2, by simp⟩
        obtain ⟨a, ha⟩ := List.prefix_of_prefix_length_le this h2 (by omega)
        exact ⟨a, ha.symm⟩
      rw [ha] at h
      simp only [List.append_assoc, List.append_cancel_left_eq] at h
      exact hf '/' (by rw [h]; simp) rfl
  have l1 := key (e.symm.trans e3) hf h2
  have l2 := key (e3.symm.trans e) h1 hd
  have := List.append_inj (e.symm.trans e3) (by omega)
  rw [this.1, this.2]
  exact ⟨e1, e2⟩

example : getPath (lit "a/b/c.log") = .ok (lit "a/b/") ∧ lastStringInPath (lit "a/b/c.log") = .ok (lit "c.log") := by decide

/-! ### C44 -/

private theorem toSize_eq {n : Int} (h1 : 0 ≤ n) (h2 : n < 2 ^ 64) : toSize n = n.toNat := by
  unfold toSize; rw [Int.emod_eq_of_lt h1 h2]

private theorem toSize_neg {n : Int} (h1 : n < 0) (h2 : -2 ^ 64 ≤ n) : (toSize n : Int) = 2 ^ 64 + n := by
  unfold toSize
  have : n % 2 ^ 64 = 2 ^ 64 + n := by omega
  omega

/-- C44: for `0 ≤ n ≤ size` the helpers cut the string where their names say. -/
theorem C44_in_range (s : Str) (hs : Fits s) (n : Int) (h0 : 0 ≤ n) (hn : n ≤ s.length) :
    ∃ a b c d, lastN s n = .ok a ∧ cutEnd s n = .ok b ∧ firstN s n = .ok c ∧ cutBeg s n = .ok d ∧
      (a.length : Int) = n ∧ b ++ a = s ∧ (c.length : Int) = n ∧ c ++ d = s := by
  unfold Fits at hs
  have e1 : toSize (s.length - n) = s.length - n.toNat := by rw [toSize_eq (by omega) (by omega)]; omega
  have e2 : toSize n = n.toNat := toSize_eq h0 (by omega)
  unfold lastN cutEnd firstN cutBeg
  rw [e1, e2, substr_npos hs (by omega), substr_ok (by omega), substr_ok (by omega), substr_tail (by omega) (by omega)]
  refine ⟨_, _, _, _, rfl, rfl, rfl, rfl, ?_, ?_, ?_, ?_⟩
  · simp; omega
  · simp
  · simp; omega
  · simp

/-- C44 (beyond the size, or negative `n`): `lastN` and `cut_beg` throw, `firstN` and `cut_end` return everything. -/
theorem C44_out_of_range (s : Str) (hs : Fits s) (n : Int) (hint : -2 ^ 31 ≤ n ∧ n < 2 ^ 31) (h : n < 0 ∨ n > s.length) :
    lastN s n = .throw .outOfRange ∧ cutBeg s n = .throw .outOfRange ∧ firstN s n = .ok s ∧ cutEnd s n = .ok s := by
  unfold Fits at hs
  have h1 : (toSize (s.length - n) : Nat) > s.length := by
    rcases h with h | h
    · rw [toSize_eq (by omega) (by omega)]; omega
    · have := toSize_neg (n := s.length - n) (by omega) (by omega); omega
  have h2 : toSize n > s.length := by
    rcases h with h | h
    · have := toSize_neg h (by omega); omega
    · rw [toSize_eq (by omega) (by omega)]; omega
  unfold lastN cutEnd firstN cutBeg substr
  rw [if_pos h1, if_pos h2, if_neg (by omega), if_neg (by omega)]
  simp only [List.drop_zero]
  rw [List.take_of_length_le (by omega), List.take_of_length_le (by omega)]
  simp

example : lastN (lit "file.log") 4 = .ok (lit ".log") ∧ lastN (lit "abc") 4 = .throw .outOfRange ∧
    firstN (lit "abc") (-1) = .ok (lit "abc") := by decide

/-! ### C45 -/

private theorem rtrim_spec (s : Str) : ∃ w, s = rtrim s ++ w ∧ (∀ c ∈ w, isSpace c = true) ∧
    (rtrim s = [] ∨ ∃ t c, rtrim s = t ++ [c] ∧ isSpace c = false) := by
  obtain ⟨e1, e2, e3⟩ := span_space isSpace s.reverse
  refine ⟨(s.reverse.takeWhile isSpace).reverse, ?_, by simpa using e2, ?_⟩
  · have := congrArg List.reverse e1
    rw [List.reverse_reverse, List.reverse_append] at this
    exact this
  · rcases e3 with e | ⟨c, t, e, hc⟩
    · left; unfold rtrim; rw [e]; rfl
    · right; exact ⟨t.reverse, c, by unfold rtrim; rw [e]; simp, hc⟩

/-- C45: `s` is white space, `trimmed(s)`, white space; `trimmed(s)` starts and ends with a non-space character. -/
theorem C45_trim (s : Str) : ∃ l r, s = l ++ trimmed s ++ r ∧ (∀ c ∈ l, White c = true) ∧ (∀ c ∈ r, White c = true) ∧
    (trimmed s = [] ∨ ((∃ c t, trimmed s = c :: t ∧ White c = false) ∧ ∃ t c, trimmed s = t ++ [c] ∧ White c = false)) := by
  obtain ⟨e1, e2, e3⟩ := span_space isSpace s
  obtain ⟨w, f1, f2, f3⟩ := rtrim_spec (ltrim s)
  refine ⟨s.takeWhile isSpace, w, ?_, e2, f2, ?_⟩
  · rw [List.append_assoc]
    show s = _ ++ (rtrim (ltrim s) ++ w)
    rw [← f1]; exact e1
  · rcases f3 with f3 | ⟨t, c, f3, hc⟩
    · left; exact f3
    · right
      refine ⟨?_, t, c, f3, hc⟩
      rcases e3 with e3 | ⟨d, u, e3, hd⟩
      · exfalso
        have : rtrim (ltrim s) = [] := by unfold ltrim; rw [e3]; rfl
        rw [this] at f3; simp at f3
      · have e4 : ltrim s = d :: u := e3
        cases hts : trimmed s with
        | nil =>
          have h' : rtrim (ltrim s) = [] := hts
          rw [h'] at f3; simp at f3
        | cons x y =>
          have h' : rtrim (ltrim s) = x :: y := hts
          rw [h', e4] at f1
          have : d = x := by simpa using (List.cons.inj f1).1
          exact ⟨x, y, rfl, this ▸ hd⟩

/-- C45 (what is kept is determined). -/
theorem C45_trim_unique {l m r : Str} (hl : ∀ c ∈ l, White c = true) (hr : ∀ c ∈ r, White c = true)
    (hm : m = [] ∨ ((∃ c t, m = c :: t ∧ White c = false) ∧ ∃ t c, m = t ++ [c] ∧ White c = false)) :
    trimmed (l ++ m ++ r) = m := by
  replace hl : ∀ c ∈ l, isSpace c = true := hl
  replace hr : ∀ c ∈ r, isSpace c = true := hr
  replace hm : m = [] ∨ ((∃ c t, m = c :: t ∧ isSpace c = false) ∧ ∃ t c, m = t ++ [c] ∧ isSpace c = false) := hm
  have dropl : ∀ (l x : Str), (∀ c ∈ l, isSpace c = true) → (l ++ x).dropWhile isSpace = x.dropWhile isSpace := by
    intro l x h
    induction l with
    | nil => rfl
    | cons c l ih => rw [List.cons_append, List.dropWhile_cons, if_pos (h c (by simp)), ih (fun d hd => h d (by simp [hd]))]
  unfold trimmed ltrim rtrim
  rw [List.append_assoc, dropl l _ hl]
  rcases hm with rfl | ⟨⟨c, t, e, hc⟩, t', c', e', hc'⟩
  · have := dropl r [] hr
    rw [List.append_nil] at this
    rw [List.nil_append, this]; rfl
  · have : (m ++ r).dropWhile isSpace = m ++ r := by rw [e, List.cons_append, List.dropWhile_cons, if_neg (by simp [hc])]
    rw [this, List.reverse_append, dropl _ _ (by simpa using hr)]
    conv => lhs; rw [e', List.reverse_append, List.reverse_singleton, List.singleton_append, List.dropWhile_cons, if_neg (by simp [hc'])]
    simp [e']

/-- C45 (idempotence). -/
theorem C45_idempotent (s : Str) : trimmed (trimmed s) = trimmed s := by
  obtain ⟨-, -, -, -, -, h⟩ := C45_trim s
  have := C45_trim_unique (l := []) (r := []) (m := trimmed s) (by simp) (by simp) h
  simpa using this

example : trimmed (lit "  a b\t ") = (lit "a b") := by decide

/-! ### C46 -/

/-- C46: before + occ + after = s at the first occurrence. -/
theorem C46_first (s occ : Str) (hs : Fits s) (h : ∃ n, OccursAt occ s n) :
    ∃ b a, grabStrBeforeFirstOccurance s occ = .ok b ∧ grabStrAfterFirstOccurance s occ = .ok a ∧ s = b ++ occ ++ a ∧
      ∀ n, OccursAt occ s n → b.length ≤ n := by
  obtain ⟨_, x, y, hxy, -⟩ := h
  unfold grabStrBeforeFirstOccurance grabStrAfterFirstOccurance
  cases hf : find occ s with
  | none => exact absurd hxy (find_none hf x y)
  | some n =>
    obtain ⟨e1, e2⟩ := find_some hf
    have hle := find_some_le hf
    simp only
    rw [substr_npos hs hle, substr_ok (by omega)]
    refine ⟨_, _, rfl, rfl, e1, ?_⟩
    rintro k ⟨x', y', hk, rfl⟩
    have := e2 x' y' hk
    simp; omega

/-- C46 (no occurrence). -/
theorem C46_first_none (s occ : Str) (h : ¬ ∃ n, OccursAt occ s n) :
    grabStrBeforeFirstOccurance s occ = .ok s ∧ grabStrAfterFirstOccurance s occ = .ok [] := by
  unfold grabStrBeforeFirstOccurance grabStrAfterFirstOccurance
  cases hf : find occ s with
  | none => exact ⟨rfl, rfl⟩
  | some n => exact absurd ⟨_, _, _, (find_some hf).1, rfl⟩ h

/-- C46 (substring test). -/
theorem C46_found (s sub : Str) : foundSubStrInStr s sub = true ↔ ∃ x y, s = x ++ sub ++ y := found_iff

example : Fits (lit "a--b--c") ∧ OccursAt (lit "--") (lit "a--b--c") 1 := ⟨by unfold Fits; decide, (lit "a"), (lit "b--c"), by decide, rfl⟩

/-! ### C47 -/

/-- C47 (refuted): `find_last_of` looks for any character of `occ`, so a two-character separator is cut inside. -/
theorem C47_refuted : ∃ s occ : Str, OccursAt occ s 1 ∧ (∀ n, OccursAt occ s n → n = 1) ∧
    grabStrBeforeLastOccurance s occ = .ok (lit "a-") ∧ grabStrAfterLastOccurance s occ = .ok (lit "b") := by
  refine ⟨(lit "a--b"), (lit "--"), ⟨(lit "a"), (lit "b"), by decide, rfl⟩, ?_, by decide, by decide⟩
  rintro n ⟨x, y, e, rfl⟩
  have hl := congrArg List.length e
  have : x.length = 0 ∨ x.length = 1 ∨ x.length = 2 := by simp at hl; omega
  rcases this with h | h | h
  · obtain rfl := List.eq_nil_of_length_eq_zero h
    simp at e
  · exact h
  · match x, h with
    | [p, q], _ => simp at e

/-- C47 (refuted, in general): whenever the string has a character of `occ`, what comes back as "before" lacks only one
character of the separator, so for separators of two or more characters the parts never recombine. -/
theorem C47_refuted_general (s occ : Str) (hs : Fits s) (h2 : occ.length ≠ 1) (h : ∃ c ∈ s, c ∈ occ) :
    ∃ b a, grabStrBeforeLastOccurance s occ = .ok b ∧ grabStrAfterLastOccurance s occ = .ok a ∧ s ≠ b ++ occ ++ a := by
  unfold grabStrBeforeLastOccurance grabStrAfterLastOccurance
  cases hf : findLastOf occ s with
  | none =>
    obtain ⟨c, c1, c2⟩ := h
    exact absurd c2 (findLastOf_none hf c c1)
  | some n =>
    obtain ⟨c, h1, e, h3, h4⟩ := findLastOf_some hf
    simp only
    rw [substr_npos hs (by omega), substr_ok (by omega)]
    refine ⟨_, _, rfl, rfl, ?_⟩
    intro hcon
    have := congrArg List.length hcon
    simp at this; omega

/-- C47 (partial): for a one-character separator - the only kind the program passes - the parts recombine around the
last occurrence. Missing: longer separators, where the claim is false. -/
theorem C47_last_partial (s : Str) (c : Char) (hs : Fits s) (h : c ∈ s) :
    ∃ b a, grabStrBeforeLastOccurance s [c] = .ok b ∧ grabStrAfterLastOccurance s [c] = .ok a ∧ s = b ++ [c] ++ a ∧ c ∉ a ∧
      grabStrBeforeLastOccuranceInclusive s [c] = .ok (b ++ [c]) ∧ grabStrAfterLastOccuranceInclusive s [c] = .ok (c :: a) := by
  unfold grabStrBeforeLastOccurance grabStrAfterLastOccurance grabStrBeforeLastOccuranceInclusive grabStrAfterLastOccuranceInclusive
  cases hf : findLastOf [c] s with
  | none => exact absurd (by simp) (findLastOf_none hf c h)
  | some n =>
    obtain ⟨d, h1, e, h3, h4⟩ := findLastOf_some hf
    have hd : d = c := by simpa using h1
    subst hd
    simp only
    rw [substr_npos hs (by omega), substr_ok (by omega), substr_ok (by omega), substr_npos hs (by omega)]
    have hdrop : s.drop n = d :: s.drop (n + 1) := by
      have := congrArg (List.drop n) e
      rw [List.drop_append_of_le_length (by simp; omega)] at this
      simpa using this
    refine ⟨_, _, rfl, rfl, by simpa using e, fun hc => h4 d hc (by simp), ?_, ?_⟩
    · simp only [List.drop_zero]
      rw [List.take_add_one]
      congr 1
      have : s[n]? = some d := by
        have := congrArg List.head? hdrop
        simpa [List.head?_drop] using this
      rw [this]; rfl
    · rw [hdrop]

/-- C47 (no occurrence of any character). -/
theorem C47_last_none (s occ : Str) (h : ∀ c ∈ occ, c ∉ s) :
    grabStrBeforeLastOccurance s occ = .ok s ∧ grabStrAfterLastOccurance s occ = .ok [] ∧
    grabStrBeforeLastOccuranceInclusive s occ = .ok s ∧ grabStrAfterLastOccuranceInclusive s occ = .ok [] := by
  unfold grabStrBeforeLastOccurance grabStrAfterLastOccurance grabStrBeforeLastOccuranceInclusive grabStrAfterLastOccuranceInclusive
  cases hf : findLastOf occ s with
  | none => exact ⟨rfl, rfl, rfl, rfl⟩
  | some n =>
    obtain ⟨c, h1, e, h3, h4⟩ := findLastOf_some hf
    exact absurd (by rw [e]; simp) (h c h1)

example : grabStrAfterLastOccuranceInclusive (lit "a.b.log") ['.'] = .ok (lit ".log") := by decide

end Verif.Strings
