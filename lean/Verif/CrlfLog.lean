import Verif.CrlfLemmas
/-
What a log file says, and how it depends on its line ends.
-/
namespace Verif.Crlf
open Readers Log
open LogLines
open Pun (rowLine NoLine)

variable {α : Type} [Mul α] [Num α]

/-! ### what does not depend on them -/

theorem announcesLog_cr (t : Str) (i : Nat) (k : Kind) : Announces (lineAt (crlf t) i) k ↔ Announces (lineAt t i) k := by
  have hm : ∀ k, Mentions (lineAt (crlf t) i) k ↔ Mentions (lineAt t i) k := by
    intro k
    cases k with
    | population => exact contains_cr (lineAt_cr t i) (by decide) (by decide)
    | coords => exact or_congr (contains_cr (lineAt_cr t i) (by decide) (by decide)) (contains_cr (lineAt_cr t i) (by decide) (by decide))
    | energies spin => exact contains_cr (lineAt_cr t i) (by cases spin <;> decide) (by cases spin <;> decide)
    | overlap => exact contains_cr (lineAt_cr t i) (by decide) (by decide)
  unfold Announces
  simp only [hm]

theorem coordLine_cr (t : Str) (i j : Nat) : Cr (coordLine t i j) (coordLine (crlf t) i j) := rowLine_cr t _ _

theorem ruler_cr (t : Str) (i j : Nat) : IsRuler (coordLine (crlf t) i j) ↔ IsRuler (coordLine t i j) :=
  contains_cr (coordLine_cr t i j) (by decide) (by decide)

theorem position_cr (t : Str) (i j : Nat) : (position (coordLine (crlf t) i j) : Res (α × α × α)) = position (coordLine t i j) := by
  unfold position numberAt
  rw [words_cr (coordLine_cr t i j)]

theorem coordRows_cr (t : Str) (i k : Nat) (pos : Nat → α × α × α) : CoordRows (crlf t) i k pos ↔ CoordRows t i k pos := by
  unfold CoordRows
  simp only [ruler_cr, position_cr]

theorem occ_cr (t : Str) (i : Nat) (spin : Spin) : IsOcc spin (lineAt (crlf t) i) ↔ IsOcc spin (lineAt t i) :=
  contains_cr (lineAt_cr t i) (by cases spin <;> decide) (by cases spin <;> decide)

theorem virt_cr (t : Str) (i : Nat) (spin : Spin) : IsVirt spin (lineAt (crlf t) i) ↔ IsVirt spin (lineAt t i) :=
  contains_cr (lineAt_cr t i) (by cases spin <;> decide) (by cases spin <;> decide)

theorem lineEnergies_cr (t : Str) (i : Nat) : (lineEnergies (lineAt (crlf t) i) : List α) = lineEnergies (lineAt t i) := by
  unfold lineEnergies
  rw [words_cr (lineAt_cr t i)]

theorem energiesOn_cr (t : Str) (i k : Nat) : (energiesOn (crlf t) i k : List α) = energiesOn t i k := by
  unfold energiesOn
  simp only [lineEnergies_cr]

theorem occupiedOn_cr (t : Str) (spin : Spin) (i k : Nat) : occupiedOn α (crlf t) spin i k = occupiedOn α t spin i k := by
  unfold occupiedOn
  congr 1
  refine List.map_congr_left fun j _ => ?_
  rw [lineEnergies_cr]
  by_cases ho : IsOcc spin (lineAt t (i + j))
  · rw [if_pos ho, if_pos ((occ_cr ..).2 ho)]
  · rw [if_neg ho, if_neg (fun h => ho ((occ_cr ..).1 h))]

theorem energyLines_cr (t : Str) (spin : Spin) (i k : Nat) : EnergyLines (crlf t) spin i k ↔ EnergyLines t spin i k := by
  unfold EnergyLines
  simp only [noLine_crlf, occ_cr, virt_cr]

/-! ### files without the other tables -/

theorem table_plain {t : Str} (ht : NeitherTable t) {i : Nat} {k : Kind} {f : Known α → Known α} {e : Nat} (ha : Announces (lineAt t i) k)
    (h : Table t i k f e) : Table (crlf t) i k f e := by
  cases h with
  | coords h1 h2 => exact .coords ((coordRows_cr ..).2 h1) ((ruler_cr ..).2 h2)
  | @energies spin k h1 h2 =>
    have := Table.energies (α := α) h1 ((energyLines_cr t spin i k).2 h2)
    rw [energiesOn_cr, occupiedOn_cr] at this
    exact this
  | overlap => exact absurd ha (ht.overlap i)
  | population => exact absurd ha (ht.population i)

theorem log_says {t : Str} (ht : NeitherTable t) {i : Nat} {d d' : Known α} (h : Says t i d d') : Says (crlf t) i d d' := by
  induction h with
  | done h => exact .done ((noLine_crlf ..).2 h)
  | skip h1 h2 _ ih => exact .skip (fun h => h1 ((noLine_crlf ..).1 h)) (fun s h => h2 s ((announcesLog_cr ..).1 h)) ih
  | table h1 h2 h3 _ ih => exact .table (fun h => h1 ((noLine_crlf ..).1 h)) ((announcesLog_cr ..).2 h2) (table_plain ht h2 h3) ih

theorem log_fails {t : Str} (ht : NeitherTable t) {i : Nat} {x : Fault} (h : Fails α t i x) : Fails α (crlf t) i x := by
  induction h with
  | @bad i k x h1 h2 h3 =>
    refine .bad (fun h => h1 ((noLine_crlf ..).1 h)) ((announcesLog_cr ..).2 h2) ?_
    cases h3 with
    | coords a b c => exact .coords ((coordRows_cr ..).2 a) (fun h => b ((ruler_cr ..).1 h)) (by rw [position_cr]; exact c)
    | overlap => exact absurd h2 (ht.overlap i)
    | population => exact absurd h2 (ht.population i)
  | skip h1 h2 _ ih => exact .skip (fun h => h1 ((noLine_crlf ..).1 h)) (fun s h => h2 s ((announcesLog_cr ..).1 h)) ih
  | table h1 h2 h3 _ ih => exact .table (fun h => h1 ((noLine_crlf ..).1 h)) ((announcesLog_cr ..).2 h2) (table_plain ht h2 h3) ih

theorem log_endless {t : Str} (ht : NeitherTable t) {i : Nat} (h : Endless α t i) : Endless α (crlf t) i := by
  induction h with
  | @here i k h1 h2 h3 =>
    refine .here (fun h => h1 ((noLine_crlf ..).1 h)) ((announcesLog_cr ..).2 h2) ?_
    cases h3 with
    | coords h => exact .coords (fun k => (coordRows_cr ..).2 (h k))
    | energies h => exact .energies ((energyLines_cr ..).2 h)
    | population => exact absurd h2 (ht.population i)
  | skip h1 h2 _ ih => exact .skip (fun h => h1 ((noLine_crlf ..).1 h)) (fun s h => h2 s ((announcesLog_cr ..).1 h)) ih
  | table h1 h2 h3 _ ih => exact .table (fun h => h1 ((noLine_crlf ..).1 h)) ((announcesLog_cr ..).2 h2) (table_plain ht h2 h3) ih

/-! ### the other tables -/

theorem rowLine_in {t : Str} {i j : Nat} (h : i + j + 1 < (textLines t).length) :
    rowLine (crlf t) i j = rowLine t i j ++ ['\r'] := by
  unfold rowLine
  rw [crlf_length, if_pos (by omega), if_pos (by omega), lineAt_crlf, if_pos h]

theorem fortran_empty : (fortranNumber [] : Res α) = .throw .invalidArgument := by
  unfold fortranNumber
  rw [show List.takeWhile (· ≠ 'D') ([] : Str) = [] from rfl, Num.stod_empty]
  rfl

omit [Mul α] [Num α] in
/-- What ends in an empty word is no row of numbers. -/
theorem mapM_empty {f : Str → Res α} (hf : f [] = .throw .invalidArgument) (ws : List Str) (vals : List α) : (ws ++ [[]]).mapM f ≠ .ok vals := by
  rw [List.mapM_append]
  intro h
  obtain ⟨a, -, h⟩ := Res.bind_eq_ok.1 h
  obtain ⟨b, h2, -⟩ := Res.bind_eq_ok.1 h
  rw [List.mapM_cons, hf] at h2
  cases h2

omit [Mul α] [Num α] in
theorem mapM_empty_throws {f : Str → Res α} (hf : f [] = .throw .invalidArgument) {ws : List Str} {vals : List α} (h : ws.mapM f = .ok vals) :
    (ws ++ [[]]).mapM f = .throw .invalidArgument := by
  rw [List.mapM_append, h, Res.ok_bind, List.mapM_cons, hf]
  rfl

omit [Mul α] [Num α] in
/-- If the words after the first `k` on a line are numbers, a carriage return spoils it. -/
theorem beyond_throws {f : Str → Res α} (hf : f [] = .throw .invalidArgument) {k : Nat} {l : Str} (hk : k ≤ (words l).length) {vals : List α}
    (h : (beyond k l).mapM f = .ok vals) : (beyond k (l ++ ['\r'])).mapM f = .throw .invalidArgument := by
  unfold beyond at h ⊢
  rw [if_neg (by omega)] at h
  rw [words_cr (.inr rfl), if_neg (by omega)]
  by_cases hw : l.getLast?.any White = true
  · rw [if_pos hw] at h
    exact absurd h (mapM_empty hf _ _)
  · rw [if_neg hw, List.append_nil] at h
    have : ((l ++ ['\r']).getLast?.any White) = true := by simp [White]
    rw [if_pos this]
    exact mapM_empty_throws hf h

theorem numberText_cr (t : Str) (i j : Nat) : numberText (crlf t) i j = numberText t i j := by
  induction j with
  | zero => rfl
  | succ j ih =>
    unfold numberText
    rw [words_cr (rowLine_cr t (i + 1) (j + 1)), ih]

theorem first_words {t : Str} {i : Nat} (h : Counted t i 1) : 1 ≤ (words (rowLine t (i + 1) 1)).length := by
  have h := h 0 (by omega)
  unfold numberText numberText at h
  cases hw : words (rowLine t (i + 1) 1) with
  | nil =>
    rw [hw] at h
    exact absurd h (by decide)
  | cons => simp

theorem rowItems_first (t : Str) (i n : Nat) : rowItems t i n 0 1 = beyond 1 (rowLine t (i + 1) 1) := rfl

theorem counted_one {t : Str} {i n : Nat} (hn : 1 ≤ n) (h : Counted t i n) : Counted t i 1 := fun j hj => h j (by omega)

/-- Whatever is listed as overlaps, the first row cannot be read. -/
theorem overlap_no {t : Str} {i : Nat} (hi : i + 3 < (textLines t).length) {n : Nat} {vals : Nat → Nat → List α} :
    ¬ OverlapAt (crlf t) i n vals := by
  rintro ⟨hn, ⟨hc, hr, -⟩, -⟩
  have h1 := hr 1 (by omega) hn
  have hw := first_words (counted_one hn hc)
  rw [rowItems_first, rowLine_in (by omega)] at h1
  rw [words_cr (rowLine_cr t (i + 1) 1)] at hw
  obtain ⟨ws, e⟩ := beyond_cr hw
  rw [e] at h1
  exact mapM_empty fortran_empty _ _ h1

theorem overlap_fault {t : Str} {i : Nat} (hi : i + 3 < (textLines t).length) {n : Nat} {vals : Nat → Nat → List α} (h : OverlapAt t i n vals) :
    OverlapFault α (crlf t) i (.throws .invalidArgument) := by
  obtain ⟨hn, ⟨hc, hr, -⟩, -⟩ := h
  have h1 := hr 1 (by omega) hn
  have hc1 := counted_one hn hc
  refine .value (n := 0) (vals := fun _ => []) (fun j hj => by rw [numberText_cr]; exact hc1 j hj) (fun r h1 h2 => by omega) ?_
  rw [rowItems_first] at h1 ⊢
  rw [rowLine_in (by omega)]
  exact beyond_throws fortran_empty (first_words hc1) h1

theorem pop_words {t : Str} {i : Nat} (hi : i + 3 < (textLines t).length) : popLine t i 1 = lineAt t (i + 2) := by
  unfold popLine rowLine
  rw [if_pos (by omega)]

theorem atoms_first {t : Str} {i a j e : Nat} {fs : List ((Nat × Str) × Str)} (h : Atoms α t i a j fs e) : FirstFn α t i j := by
  cases h with
  | last h _ => exact h.1
  | more h _ _ => exact h.1

theorem atoms_ne {t : Str} {i a j e : Nat} {fs : List ((Nat × Str) × Str)} (h : Atoms α t i a j fs e) : fs ≠ [] := by
  cases h with
  | last h _ => obtain ⟨-, -, ls, rfl, -⟩ := h; simp [fnsOf]
  | more h _ _ => obtain ⟨-, -, ls, rfl, -⟩ := h; simp [fnsOf]

theorem atoms_no {t : Str} {i : Nat} (hi : i + 3 < (textLines t).length) (hw : 4 ≤ (words (lineAt t (i + 2))).length) {a e : Nat}
    {fs : List ((Nat × Str) × Str)} : ¬ Atoms α (crlf t) i a 1 fs e := by
  intro h
  obtain ⟨⟨vals, h⟩, -⟩ := atoms_first h
  unfold numbers at h
  rw [show popLine (crlf t) i 1 = popLine t i 1 ++ ['\r'] from rowLine_in (by omega), pop_words hi] at h
  obtain ⟨ws, e⟩ := beyond_cr hw
  rw [e] at h
  exact mapM_empty Num.stod_empty _ _ h

theorem atoms_bad {t : Str} {i : Nat} (hi : i + 3 < (textLines t).length) (hw : 4 ≤ (words (lineAt t (i + 2))).length) {a e : Nat}
    {fs : List ((Nat × Str) × Str)} (h : Atoms α t i a 1 fs e) : BadAtoms α (crlf t) i 1 .invalidArgument := by
  obtain ⟨⟨vals, h⟩, -⟩ := atoms_first h
  refine .first ?_
  unfold numbers at h ⊢
  rw [show popLine (crlf t) i 1 = popLine t i 1 ++ ['\r'] from rowLine_in (by omega)]
  exact beyond_throws Num.stod_empty (by rw [pop_words hi]; exact hw) h

/-- The file gives neither overlaps nor functions beyond those known. -/
theorem log_never {t : Str} (ht : Ordinary t) {i : Nat} {d d' : Known α} (h : Says (crlf t) i d d') :
    d'.overlap = d.overlap ∧ d'.functions = d.functions := by
  induction h with
  | done => exact ⟨rfl, rfl⟩
  | skip _ _ _ ih => exact ih
  | @table i k f e d d' h1 h2 h3 _ ih =>
    have ha := (announcesLog_cr t i k).1 h2
    cases h3 with
    | coords => exact ih
    | energies => exact ih
    | overlap h => exact absurd h (overlap_no (ht.overlap i ha))
    | population h => exact absurd h (atoms_no (ht.population i ha).1 (ht.population i ha).2)

/-- What is known stays known. -/
theorem known_stays {t : Str} {i : Nat} {d d' : Known α} (h : Says t i d d') :
    (d.overlap ≠ none → d'.overlap ≠ none) ∧ (d.functions ≠ [] → d'.functions ≠ []) := by
  induction h with
  | done => exact ⟨id, id⟩
  | skip _ _ _ ih => exact ih
  | table _ _ h3 _ ih =>
    cases h3 with
    | coords => exact ih
    | energies => exact ih
    | overlap => exact ⟨fun _ => ih.1 (by simp), ih.2⟩
    | population => exact ⟨ih.1, fun h => ih.2 (by simp [h])⟩

theorem log_refused {t : Str} (ht : Ordinary t) {i : Nat} {d d' : Known α} (h : Says t i d d') :
    (d'.overlap = d.overlap ∧ d'.functions = d.functions ∧ Says (crlf t) i d d') ∨
      ((d'.overlap ≠ none ∨ d'.functions ≠ []) ∧ Fails α (crlf t) i (.throws .invalidArgument)) := by
  induction h with
  | done h => exact .inl ⟨rfl, rfl, .done ((noLine_crlf ..).2 h)⟩
  | skip h1 h2 _ ih =>
    have n1 := fun h => h1 ((noLine_crlf t _).1 h)
    have n2 := fun s h => h2 s ((announcesLog_cr t ..).1 h)
    rcases ih with ⟨e1, e2, ih⟩ | ⟨hk, ih⟩
    · exact .inl ⟨e1, e2, .skip n1 n2 ih⟩
    · exact .inr ⟨hk, .skip n1 n2 ih⟩
  | @table i k f e d d' h1 h2 h3 h4 ih =>
    have n1 := fun h => h1 ((noLine_crlf t _).1 h)
    have n2 := (announcesLog_cr t i k).2 h2
    cases h3 with
    | coords a b =>
      have n3 := Table.coords (α := α) ((coordRows_cr ..).2 a) ((ruler_cr ..).2 b)
      rcases ih with ⟨e1, e2, ih⟩ | ⟨hk, ih⟩
      · exact .inl ⟨e1, e2, .table n1 n2 n3 ih⟩
      · exact .inr ⟨hk, .table n1 n2 n3 ih⟩
    | @energies spin k a b =>
      have n3 := Table.energies (α := α) a ((energyLines_cr t spin i k).2 b)
      rw [energiesOn_cr, occupiedOn_cr] at n3
      rcases ih with ⟨e1, e2, ih⟩ | ⟨hk, ih⟩
      · exact .inl ⟨e1, e2, .table n1 n2 n3 ih⟩
      · exact .inr ⟨hk, .table n1 n2 n3 ih⟩
    | overlap a => exact .inr ⟨.inl ((known_stays h4).1 (by simp)), .bad n1 n2 (.overlap (overlap_fault (ht.overlap i h2) a))⟩
    | population a =>
      exact .inr ⟨.inr ((known_stays h4).2 (by simp [atoms_ne a])),
        .bad n1 n2 (.population (atoms_bad (ht.population i h2).1 (ht.population i h2).2 a))⟩

end Verif.Crlf
