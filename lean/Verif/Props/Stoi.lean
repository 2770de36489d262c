import Verif.Spec.Args
import Mathlib.Data.List.Induction
/-
Property C67: integers on the command line.
-/
namespace Verif.Args

private def dval (ds : Str) : Int := ds.foldl (fun acc c => acc * 10 + digitVal c) 0

private theorem digit_char {d : Nat} (h : d < 10) : isDigit (Char.ofNat (48 + d)) = true ∧ digitVal (Char.ofNat (48 + d)) = d := by
  have : d = 0 ∨ d = 1 ∨ d = 2 ∨ d = 3 ∨ d = 4 ∨ d = 5 ∨ d = 6 ∨ d = 7 ∨ d = 8 ∨ d = 9 := by omega
  rcases this with h | h | h | h | h | h | h | h | h | h <;> subst h <;> decide

private theorem char_digit {c : Char} (h : isDigit c = true) : ∃ d, d < 10 ∧ c = Char.ofNat (48 + d) := by
  unfold isDigit at h
  simp only [Bool.and_eq_true, decide_eq_true_eq] at h
  obtain ⟨h1, h2⟩ := h
  have h1' : 48 ≤ c.toNat := h1
  have h2' : c.toNat ≤ 57 := h2
  refine ⟨c.toNat - 48, by omega, ?_⟩
  rw [show 48 + (c.toNat - 48) = c.toNat by omega, Char.ofNat_toNat]

private theorem decimal_digits {ds : Str} {n : Nat} (h : Decimal ds n) :
    ds ≠ [] ∧ (∀ c ∈ ds, isDigit c = true) ∧ dval ds = n := by
  induction h with
  | one d h => simp [digit_char h, dval]
  | snoc d h _ ih =>
    obtain ⟨h1, h2, h3⟩ := ih
    refine ⟨by simp, ?_, ?_⟩
    · intro c hc
      rcases List.mem_append.1 hc with hc | hc
      · exact h2 c hc
      · simp only [List.mem_singleton] at hc; subst hc; exact (digit_char h).1
    · unfold dval at *
      rw [List.foldl_append, h3]; simp [digit_char h]

private theorem digits_decimal {ds : Str} (h0 : ds ≠ []) (h : ∀ c ∈ ds, isDigit c = true) :
    ∃ n, Decimal ds n ∧ dval ds = n := by
  induction ds using List.reverseRecOn with
  | nil => exact absurd rfl h0
  | append_singleton ds c ih =>
    obtain ⟨d, hd, hc⟩ := char_digit (h c (by simp))
    by_cases hds : ds = []
    · subst hds
      refine ⟨d, by rw [hc]; exact .one d hd, ?_⟩
      simp [dval, hc, digit_char hd]
    · obtain ⟨n, hn, hv⟩ := ih hds (fun x hx => h x (by simp [hx]))
      refine ⟨n * 10 + d, by rw [hc]; exact .snoc d hd hn, ?_⟩
      unfold dval at *
      rw [List.foldl_append, hv]; simp [hc, digit_char hd]

private theorem dropWhile_space {w s : Str} (hw : ∀ c ∈ w, isSpace c = true) (hs : ∀ c t, s = c :: t → isSpace c = false) :
    (w ++ s).dropWhile isSpace = s := by
  induction w with
  | nil =>
    cases s with
    | nil => rfl
    | cons c t => simp [hs c t rfl]
  | cons c w ih => simp [hw c (by simp), ih (fun x hx => hw x (by simp [hx]))]

private theorem takeWhile_digits {ds rest : Str} (hd : ∀ c ∈ ds, isDigit c = true) (hr : ∀ c t, rest = c :: t → isDigit c = false) :
    (ds ++ rest).takeWhile isDigit = ds := by
  induction ds with
  | nil =>
    cases rest with
    | nil => rfl
    | cons c t => simp [hr c t rfl]
  | cons c ds ih => simp [hd c (by simp), ih (fun x hx => hd x (by simp [hx]))]

private theorem digit_notspace {c : Char} (h : isDigit c = true) : isSpace c = false ∧ c ≠ '-' ∧ c ≠ '+' := by
  obtain ⟨d, hd, rfl⟩ := char_digit h
  have : d = 0 ∨ d = 1 ∨ d = 2 ∨ d = 3 ∨ d = 4 ∨ d = 5 ∨ d = 6 ∨ d = 7 ∨ d = 8 ∨ d = 9 := by omega
  rcases this with h | h | h | h | h | h | h | h | h | h <;> subst h <;> decide

theorem strtol_of {s : Str} {v : Int} (h : IntText s v) : strtol s = some v := by
  cases h with
  | @plain w ds rest n hw hd hr =>
    obtain ⟨h1, h2, h3⟩ := decimal_digits hd
    obtain ⟨c, t, hct⟩ := List.exists_cons_of_ne_nil h1
    obtain ⟨a1, a2, a3⟩ := digit_notspace (h2 c (by rw [hct]; simp))
    have hdrop : (w ++ ds ++ rest).dropWhile isSpace = ds ++ rest := by
      rw [List.append_assoc]
      refine dropWhile_space hw ?_
      intro c' t' h; rw [hct] at h; simp only [List.cons_append, List.cons.injEq] at h; rw [← h.1]; exact a1
    unfold strtol
    rw [hdrop]
    have hm : splitSign (ds ++ rest) = (false, ds ++ rest) := by
      rw [hct]; simp only [List.cons_append, splitSign, if_neg a2, if_neg a3]
    simp only [hm, takeWhile_digits h2 hr, if_neg h1]
    rw [← h3]; rfl
  | @plus w ds rest n hw hd hr =>
    obtain ⟨h1, h2, h3⟩ := decimal_digits hd
    have hdrop : (w ++ '+' :: ds ++ rest).dropWhile isSpace = '+' :: (ds ++ rest) := by
      rw [List.append_assoc]
      refine dropWhile_space hw ?_
      intro c' t' h; simp only [List.cons_append, List.cons.injEq] at h; rw [← h.1]; decide
    unfold strtol
    rw [hdrop]
    have hm : splitSign ('+' :: (ds ++ rest)) = (false, ds ++ rest) := rfl
    simp only [hm, takeWhile_digits h2 hr, if_neg h1]
    rw [← h3]; rfl
  | @minus w ds rest n hw hd hr =>
    obtain ⟨h1, h2, h3⟩ := decimal_digits hd
    have hdrop : (w ++ '-' :: ds ++ rest).dropWhile isSpace = '-' :: (ds ++ rest) := by
      rw [List.append_assoc]
      refine dropWhile_space hw ?_
      intro c' t' h; simp only [List.cons_append, List.cons.injEq] at h; rw [← h.1]; decide
    unfold strtol
    rw [hdrop]
    have hm : splitSign ('-' :: (ds ++ rest)) = (true, ds ++ rest) := rfl
    simp only [hm, takeWhile_digits h2 hr, if_neg h1]
    rw [← h3]; rfl

private theorem takeDrop (p : Char → Bool) (s : Str) :
    s = s.takeWhile p ++ s.dropWhile p ∧ (∀ c ∈ s.takeWhile p, p c = true) ∧ (∀ c t, s.dropWhile p = c :: t → p c = false) := by
  induction s with
  | nil => simp
  | cons a s ih =>
    obtain ⟨h1, h2, h3⟩ := ih
    by_cases ha : p a = true
    · simp only [List.takeWhile_cons, ha, if_true, List.dropWhile_cons]
      refine ⟨by simp [← h1], ?_, h3⟩
      intro c hc
      rcases List.mem_cons.1 hc with rfl | hc
      · exact ha
      · exact h2 c hc
    · simp only [List.takeWhile_cons, ha, List.dropWhile_cons]
      refine ⟨by simp, by simp, ?_⟩
      intro c t h
      simp only [Bool.false_eq_true, if_false, List.cons.injEq] at h
      rw [← h.1]; simpa using ha

private theorem strtol_inv {s : Str} {v : Int} (h : strtol s = some v) : IntText s v := by
  obtain ⟨e, hw, hs⟩ := takeDrop isSpace s
  generalize hu : s.dropWhile isSpace = u at e hs
  generalize s.takeWhile isSpace = w at e hw
  unfold strtol at h
  rw [hu] at h
  simp only at h
  generalize hss : splitSign u = ss at h
  split at h
  · cases h
  · rename_i hn
    simp only [Option.some.injEq] at h
    obtain ⟨e2, hd, hr⟩ := takeDrop isDigit ss.2
    obtain ⟨n, hdec, hval⟩ := digits_decimal hn hd
    have hv : v = if ss.1 = true then -(n : Int) else n := by rw [← hval]; exact h.symm
    rcases u with _ | ⟨c, t⟩
    · exact absurd (by subst hss; rfl) hn
    · by_cases h1 : c = '-'
      · have : ss = (true, t) := by rw [← hss, h1]; rfl
        subst this; subst h1
        rw [hv, e, show t = _ from e2]
        simpa using IntText.minus (w := w) hw hdec hr
      · by_cases h2 : c = '+'
        · have : ss = (false, t) := by rw [← hss, h2]; rfl
          subst this; subst h2
          rw [hv, e, show t = _ from e2]
          simpa using IntText.plus (w := w) hw hdec hr
        · have : ss = (false, c :: t) := by rw [← hss]; simp [splitSign, h1, h2]
          subst this
          rw [hv, e, show c :: t = _ from e2]
          simpa using IntText.plain (w := w) hw hdec hr

/-- C67 (reading): text that starts (after white space) with an integer is read as that integer if it fits an `int`, and
rejected with `out_of_range` otherwise; all other text is rejected with `invalid_argument`. -/
theorem C67_stoi (s : Str) :
    (∀ v, IntText s v → -2 ^ 31 ≤ v ∧ v < 2 ^ 31 → stoi s = .ok v) ∧
    (∀ v, IntText s v → ¬ (-2 ^ 31 ≤ v ∧ v < 2 ^ 31) → stoi s = .throw .outOfRange) ∧
    ((¬ ∃ v, IntText s v) → stoi s = .throw .invalidArgument) := by
  refine ⟨?_, ?_, ?_⟩
  · intro v h hr
    unfold stoi; rw [strtol_of h]; simp only; rw [if_neg (by omega)]
  · intro v h hr
    unfold stoi; rw [strtol_of h]; simp only; rw [if_pos (by omega)]
  · intro h
    unfold stoi
    cases hs : strtol s with
    | none => rfl
    | some v => exact absurd ⟨v, strtol_inv hs⟩ h

private theorem toDigitsCore_decimal : ∀ (fuel n : Nat) (acc : Str), n < fuel →
    ∃ ds, Nat.toDigitsCore 10 fuel n acc = ds ++ acc ∧ Decimal ds n := by
  intro fuel
  induction fuel with
  | zero => intro n acc h; omega
  | succ fuel ih =>
    intro n acc h
    have hdc : ∀ d, d < 10 → Nat.digitChar d = Char.ofNat (48 + d) := by
      intro d hd
      have : d = 0 ∨ d = 1 ∨ d = 2 ∨ d = 3 ∨ d = 4 ∨ d = 5 ∨ d = 6 ∨ d = 7 ∨ d = 8 ∨ d = 9 := by omega
      rcases this with h | h | h | h | h | h | h | h | h | h <;> subst h <;> decide
    unfold Nat.toDigitsCore
    simp only
    by_cases h0 : n / 10 = 0
    · rw [if_pos h0]
      refine ⟨[Nat.digitChar (n % 10)], rfl, ?_⟩
      rw [hdc _ (by omega)]
      have : n % 10 = n := by omega
      rw [this]; exact .one n (by omega)
    · rw [if_neg h0]
      obtain ⟨ds, e, hd⟩ := ih (n / 10) (Nat.digitChar (n % 10) :: acc) (by omega)
      refine ⟨ds ++ [Nat.digitChar (n % 10)], by rw [e]; simp, ?_⟩
      rw [hdc _ (by omega)]
      have := Decimal.snoc (n % 10) (by omega) hd
      rwa [show n / 10 * 10 + n % 10 = n by omega] at this

/-- `to_string` of an integer is its decimal rendering. -/
theorem intToStr_text (n : Int) : IntText (intToStr n) n := by
  unfold intToStr
  obtain ⟨ds, e, hd⟩ := toDigitsCore_decimal (n.natAbs + 1) n.natAbs [] (by omega)
  have e' : Nat.toDigits 10 n.natAbs = ds := by unfold Nat.toDigits; rw [e]; simp
  rw [e']
  split
  · have := IntText.minus (w := []) (rest := []) (by simp) hd (by simp)
    have hn : -((n.natAbs : Nat) : Int) = n := by omega
    simpa [hn] using this
  · have := IntText.plain (w := []) (rest := []) (by simp) hd (by simp)
    have hn : ((n.natAbs : Nat) : Int) = n := by omega
    simpa [hn] using this

/-- C67 (round trip): `stoi(to_string(n)) = n` for every `int` n. -/
theorem C67_roundtrip (n : Int) (h : -2 ^ 31 ≤ n ∧ n < 2 ^ 31) : stoi (intToStr n) = .ok n :=
  (C67_stoi _).1 n (intToStr_text n) h

/-- C67 (surprise): text after the integer is silently ignored. -/
theorem C67_trailing (n : Int) (h : -2 ^ 31 ≤ n ∧ n < 2 ^ 31) (rest : Str) (hr : ∀ c t, rest = c :: t → Digit c = false) :
    stoi (intToStr n ++ rest) = .ok n := by
  apply (C67_stoi _).1 n ?_ h
  have := intToStr_text n
  generalize intToStr n = s at this
  cases this with
  | @plain w ds r n hw hd hr' =>
    cases r with
    | nil => simpa using IntText.plain hw hd hr
    | cons c r => simpa using IntText.plain (rest := c :: r ++ rest) hw hd (by intro c' t' h'; simp at h'; rw [← h'.1]; exact hr' c r rfl)
  | @plus w ds r n hw hd hr' =>
    cases r with
    | nil => simpa using IntText.plus hw hd hr
    | cons c r => simpa using IntText.plus (rest := c :: r ++ rest) hw hd (by intro c' t' h'; simp at h'; rw [← h'.1]; exact hr' c r rfl)
  | @minus w ds r n hw hd hr' =>
    cases r with
    | nil => simpa using IntText.minus hw hd hr
    | cons c r => simpa using IntText.minus (rest := c :: r ++ rest) hw hd (by intro c' t' h'; simp at h'; rw [← h'.1]; exact hr' c r rfl)

example : stoi (lit " -12x") = .ok (-12) ∧ stoi (lit "2147483648") = .throw .outOfRange ∧ stoi (lit "abc") = .throw .invalidArgument ∧
    intToStr (-305) = lit "-305" := by decide

end Verif.Args
