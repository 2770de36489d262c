import Verif.Props.CrlfRun
import Verif.ConcreteJob
/-
C141: what can happen to a punch file with a line that is one character too short, and examples.
-/
namespace Verif.Crlf
open Readers Log Strings QC

/-! ### a field of 14 characters -/

/-- Two orbitals; the exponent of the last coefficient on each line lacks its last digit. -/
def short : Str := (lit " 1 Alpha MO OE=0\n          1D+00          2D+0\n 2 Alpha MO OE=1\n          3D+00          4D+0\n")

theorem short_says : Pun.Says short 0 (fun _ => none) (fun s => if s = .alpha then some [[(1 : Int)], [3]] else none) := by
  refine .table (spin := .alpha) (rows := [[1], [3]]) (e := 5) (by unfold Pun.NoLine; decide) (contains_of (by decide)) ?_ (by unfold Pun.SameLength; decide) (.done (.inl (by decide)))
  refine .more (k := 1) (row := [1]) ⟨fun _ => [1], ?_, by decide, .inl (contains_of (by decide))⟩ (contains_of (by decide)) ?_
  · intro j hj
    obtain rfl : j = 0 := by omega
    refine ⟨?_, by decide⟩
    rintro (h | ⟨c, h, -⟩)
    · exact not_contains_of (by decide) h
    · cases h
  · refine .last (k := 1) (row := [3]) ⟨fun _ => [3], ?_, by decide, .inr ⟨1, rfl, by decide⟩⟩ (not_contains_of (by decide))
    intro j hj
    obtain rfl : j = 0 := by omega
    refine ⟨?_, by decide⟩
    rintro (h | ⟨c, h, h'⟩)
    · exact not_contains_of (by decide) h
    · cases h; exact absurd h' (by decide)

theorem short_cr : Pun.Says (crlf short) 0 (fun _ => none) (fun s => if s = .alpha then some [[(1 : Int), 2], [3, 4]] else none) := by
  refine .table (spin := .alpha) (rows := [[1, 2], [3, 4]]) (e := 5) (by unfold Pun.NoLine; decide +kernel) (contains_of (by decide +kernel)) ?_ (by unfold Pun.SameLength; decide)
    (.done (.inl (by decide +kernel)))
  refine .more (k := 1) (row := [1, 2]) ⟨fun _ => [1, 2], ?_, by decide, .inl (contains_of (by decide +kernel))⟩ (contains_of (by decide +kernel)) ?_
  · intro j hj
    obtain rfl : j = 0 := by omega
    refine ⟨?_, by decide +kernel⟩
    rintro (h | ⟨c, h, -⟩)
    · exact not_contains_of (by decide +kernel) h
    · cases h
  · refine .last (k := 1) (row := [3, 4]) ⟨fun _ => [3, 4], ?_, by decide, .inr ⟨2, rfl, by decide⟩⟩ (not_contains_of (by decide +kernel))
    intro j hj
    obtain rfl : j = 0 := by omega
    refine ⟨?_, by decide +kernel⟩
    rintro (h | ⟨c, h, h'⟩)
    · exact not_contains_of (by decide +kernel) h
    · cases h; exact absurd h' (by decide)

/-- **C141 (the exception).** Otherwise they may matter for punch files too: a last field that lacks one character is left out with line ends
of one character and read with line ends of two. -/
theorem C141_short : ∃ (D D' : PunData Int) (m m' : Mat Int),
    Ends (fun n => readPun (holding (lit "a.pun") short) n (lit "a.pun")) (.ok D) ∧
    Ends (fun n => readPun (changed (holding (lit "a.pun") short) (lit "a.pun")) n (lit "a.pun")) (.ok D') ∧
    D.getCoefsMatrix (lit "Alpha") = .ok m ∧ D'.getCoefsMatrix (lit "Alpha") = .ok m' ∧ m.rows = 2 ∧ m.cols = 1 ∧ m'.rows = 2 ∧ m'.cols = 2 := by
  obtain ⟨D, h1, h2, -⟩ := C119_says (holding (lit "a.pun") short) _ short fits_pun name_pun rfl (by unfold Fits; decide +kernel) _ short_says
  obtain ⟨D', h1', h2', -⟩ := C119_says (changed (holding (lit "a.pun") short) (lit "a.pun")) _ (crlf short) fits_pun name_pun rfl (by unfold Fits; decide +kernel) _ short_cr
  obtain ⟨m, e1, e2, e3, -⟩ := (h2 .alpha).1 _ rfl
  obtain ⟨m', e1', e2', e3', -⟩ := (h2' .alpha).1 _ rfl
  exact ⟨D, D', m, m', h1, h1', e1, e1', e2, e3, e2', e3'⟩

/-! ### examples -/

/-- An ordinary punch file. -/
example : ∃ D : PunData Int, Ends (fun n => readPun (changed (holding (lit "a.pun") two) (lit "a.pun")) n (lit "a.pun")) (.ok D) ∧
    ∃ m, D.getCoefsMatrix (lit "Alpha") = .ok m ∧ m.getElem2 2 3 = .ok 6 := by
  have hs : NoneShort two := by
    intro j
    by_cases hj : j < 6
    · have : j = 0 ∨ j = 1 ∨ j = 2 ∨ j = 3 ∨ j = 4 ∨ j = 5 := by omega
      rcases this with rfl | rfl | rfl | rfl | rfl | rfl <;> decide +kernel
    · rw [lineAt_over (by have : (textLines two).length = 6 := by decide +kernel
                          omega)]
      decide +kernel
  obtain ⟨D, h1, h2, h3⟩ := C119_says (holding (lit "a.pun") two) _ two fits_pun name_pun rfl (by unfold Fits; decide +kernel) _ two_says
  obtain ⟨D', h4, h5⟩ := (C141_pun (holding (lit "a.pun") two) (lit "a.pun") two fits_pun rfl (by unfold Fits; decide +kernel) hs).1 D h1
  obtain ⟨m, e, -, -, e'⟩ := (h2 .alpha).1 _ rfl
  exact ⟨D', h4, m, (h5.coefs .alpha).trans e, e' 1 (by decide) 2 (by decide)⟩

/-- Can be checked line by line. -/
def ordinary (t : Str) : Bool :=
  (List.range (textLines t).length).all fun j =>
    (!foundSubStrInStr (lineAt t j) (lit " *** Overlap ***") || decide (j + 3 < (textLines t).length)) &&
    (!foundSubStrInStr (lineAt t j) (lit "     Gross orbital populations:") ||
      decide (j + 3 < (textLines t).length) && decide (4 ≤ (LogLines.words (lineAt t (j + 2))).length))

theorem mentions_of {l : Str} {k : LogLines.Kind} (h : LogLines.Announces l k) : LogLines.Mentions l k := by
  obtain ⟨a, b, -, h, -⟩ := h
  exact h

theorem ordinary_of {t : Str} (h : ordinary t = true) : Ordinary t := by
  have hl : 1 ≤ (textLines t).length := List.length_pos_iff.2 (textLines_ne t)
  unfold ordinary at h
  rw [List.all_eq_true] at h
  simp only [List.mem_range, Bool.and_eq_true, Bool.or_eq_true, Bool.not_eq_true', decide_eq_true_eq] at h
  have last : ∀ i, (textLines t).length ≤ i → lineAt t i = lineAt t ((textLines t).length - 1) := by
    intro i hi
    rw [lineAt_over (by omega), lineAt_over (by omega)]
  constructor
  · intro i ha
    have hc := mentions_of ha
    by_cases hi : i < (textLines t).length
    · rcases (h i hi).1 with h | h
      · exact absurd hc (not_contains_of h)
      · exact h
    · rw [last i (by omega)] at hc
      rcases (h ((textLines t).length - 1) (by omega)).1 with h | h
      · exact absurd hc (not_contains_of h)
      · omega
  · intro i ha
    have hc := mentions_of ha
    by_cases hi : i < (textLines t).length
    · rcases (h i hi).2 with h | h
      · exact absurd hc (not_contains_of h)
      · exact h
    · rw [last i (by omega)] at hc
      rcases (h ((textLines t).length - 1) (by omega)).2 with h | h
      · exact absurd hc (not_contains_of h)
      · omega

theorem four_ordinary : Ordinary LogLines.four := ordinary_of (by decide +kernel)

/-- A log file with one table of each kind. -/
example : Ends (fun n => (readLog (changed (holding (lit "a.log") LogLines.four) (lit "a.log")) n (lit "a.log") : Res (LogData Int))) (.throw .invalidArgument) := by
  obtain ⟨D, h1, h2⟩ := LogLines.C120_says (holding (lit "a.log") LogLines.four) _ LogLines.four LogLines.fits_log LogLines.name_log rfl
    (by unfold Fits; decide +kernel) _ LogLines.four_says
  refine (C141_log_refused (holding (lit "a.log") LogLines.four) (lit "a.log") LogLines.four LogLines.fits_log rfl (by unfold Fits; decide +kernel) four_ordinary h1).1 (.inl ?_)
  obtain ⟨m, e, -⟩ := h2.overlap
  rw [e]
  simp

/-- One with positions only. -/
def place : Str := (lit "Center     Atomic      Atomic\n\n\n 1 1 0 4 5 6\n---------------------------------------------------------------------\n")

/-- Has neither table. -/
def neither (t : Str) : Bool :=
  (List.range (textLines t).length).all fun j =>
    !foundSubStrInStr (lineAt t j) (lit " *** Overlap ***") && !foundSubStrInStr (lineAt t j) (lit "     Gross orbital populations:")

theorem neither_of {t : Str} (h : neither t = true) : NeitherTable t := by
  have hl : 1 ≤ (textLines t).length := List.length_pos_iff.2 (textLines_ne t)
  unfold neither at h
  rw [List.all_eq_true] at h
  simp only [List.mem_range, Bool.and_eq_true, Bool.not_eq_true'] at h
  have get : ∀ i, ∃ j < (textLines t).length, lineAt t i = lineAt t j := by
    intro i
    by_cases hi : i < (textLines t).length
    · exact ⟨i, hi, rfl⟩
    · refine ⟨(textLines t).length - 1, by omega, ?_⟩
      rw [lineAt_over (by omega), lineAt_over (by omega)]
  constructor
  · intro i ha
    have hc := mentions_of ha
    obtain ⟨j, hj, e⟩ := get i
    rw [e] at hc
    exact not_contains_of (h j hj).1 hc
  · intro i ha
    have hc := mentions_of ha
    obtain ⟨j, hj, e⟩ := get i
    rw [e] at hc
    exact not_contains_of (h j hj).2 hc

theorem place_says : LogLines.Says place 0 LogLines.nothing { (LogLines.nothing : LogLines.Known Int) with coords := some [(4, 5, 6)] } := by
  refine .table (by unfold Pun.NoLine; decide +kernel) (k := .coords) ⟨[.population], _, rfl, .inl (contains_of (by decide +kernel)), ?_⟩
    (LogLines.Table.coords (k := 1) (pos := fun _ => (4, 5, 6)) ?_ (contains_of (by decide +kernel))) (.done (.inr (by decide +kernel)))
  · intro k hk
    obtain rfl : k = .population := by simpa using hk
    exact not_contains_of (by decide +kernel)
  · intro j hj
    obtain rfl : j = 0 := by omega
    exact ⟨not_contains_of (by decide +kernel), by decide +kernel⟩

example : ∃ D : LogData Int, Ends (fun n => readLog (changed (holding (lit "a.log") place) (lit "a.log")) n (lit "a.log")) (.ok D) ∧ D.getCoords = [[4], [5], [6]] := by
  obtain ⟨D, h1, h2⟩ := LogLines.C120_says (holding (lit "a.log") place) _ place LogLines.fits_log LogLines.name_log rfl
    (by unfold Fits; decide +kernel) _ place_says
  obtain ⟨D', h3, h4⟩ := (C141_log_same (holding (lit "a.log") place) (lit "a.log") place LogLines.fits_log rfl (by unfold Fits; decide +kernel)
    (neither_of (by decide +kernel))).1 D h1
  exact ⟨D', h3, h4.coords.trans h2.coords⟩

/-- A coupling comes with a report. -/
theorem run_of_main {α β : Type} [Zero α] [One α] [Add α] [Sub α] [Mul α] [Div α] [Num α] [DecidableEq β] {D : Type} [Args.Dbl D] {tos : α → β}
    {files : Str → Option Str} {args : List Str} {v : α} (h : Ends (fun fuel => calcJMain D tos files fuel args) (.ok v)) {q : Args.Parser D}
    (hq : Args.parse (fsOf files) Args.calcJ args = .ok q) {par : Params.Params} (hpar : Args.prepareParameters q = .ok par) :
    ∃ r, Ends (fun fuel => calcJRun D tos files fuel args) (.ok (par, r)) := by
  obtain ⟨-, N, hN⟩ := h
  obtain ⟨⟨par', r⟩, hr, -⟩ := Res.bind_eq_ok.1 (hN N (Nat.le_refl _))
  have hp : par' = par := by
    have e := hr
    unfold calcJRun at e
    rw [Args.prepareParser_ok] at e
    simp only [Res.ok_bind] at e
    rw [hq, Res.ok_bind, hpar, Res.ok_bind] at e
    obtain ⟨⟨⟨prP, pr1, pr2⟩, lrP, lr1, lr2⟩, -, e⟩ := Res.bind_eq_ok.1 e
    obtain ⟨rep, -, e⟩ := Res.bind_eq_ok.1 e
    cases e
    rfl
  subst hp
  refine ⟨r, by simp, N, fun m hm => (calcJRun_mono tos files args N m hm ?_).trans hr⟩
  show calcJRun D tos files N args ≠ _
  rw [hr]
  simp

section
open Sample
variable {D : Type} [Args.Dbl D]

/-- The run throws. -/
structure Refused (D : Type) [Args.Dbl D] (files : Str → Option Str) (args : List Str) : Prop where
  ends : Ends (fun fuel => calcJRun D (id : Rat → Rat) files fuel args) (.throw .invalidArgument)

theorem refused_of {files : Str → Option Str} {args : List Str} {v : Rat} (h : Ends (fun fuel => calcJMain D (id : Rat → Rat) files fuel args) (.ok v))
    {par : Params.Params} (hq : ∃ q : Args.Parser D, Args.parse (fsOf files) Args.calcJ args = .ok q ∧ Args.prepareParameters q = .ok par)
    {name text : Str} (hn : par.logP = name) (hfit : Fits name) (hf : files name = some text) (ht : Fits (crlf text)) (hs : ordinary text = true) :
    Refused D (changed files name) args := by
  subst hn
  obtain ⟨q, hq, hpar⟩ := hq
  obtain ⟨r, hr⟩ := run_of_main h hq hpar
  exact ⟨C141_calc_J (id : Rat → Rat) files _ hr hfit hf ht (ordinary_of hs)⟩

/-- A job that works (`sample_job`), and what is left of it. -/
example : Refused D (changed Sample.files (lit "P.log")) [(lit "-p_P"), (lit "P.pun"), (lit "-p_1"), (lit "1.pun"), (lit "-p_2"), (lit "2.pun")] :=
  refused_of (text := logText outP.log outP.tail) sample_job sample_parse rfl (by unfold Fits; decide) rfl (by unfold Fits; decide +kernel) (by decide +kernel)

end
end Verif.Crlf
