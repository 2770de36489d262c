import Verif.Props.Chatter
import Verif.Props.CutOffEx
/-
C154: a heading put before every file, and small files with lines added.
-/
namespace Verif.Chatter
open Readers Log Strings CutOff QC
open LogLines (announces_alpha fits_log name_log)

/-- A line that has none of the words by which tables are announced. -/
def dull (l : Str) : Bool :=
  !foundSubStrInStr l (lit " 1 Alpha MO ") && !foundSubStrInStr l (lit " 1 Beta MO ") && !foundSubStrInStr l (lit "     Gross orbital populations:") &&
  !foundSubStrInStr l (lit "Center     Atomic      Atomic") && !foundSubStrInStr l (lit "Center     Atomic     Atomic") &&
  !foundSubStrInStr l (lit " Alpha  occ. eigenvalues --") && !foundSubStrInStr l (lit "  Beta  occ. eigenvalues --") && !foundSubStrInStr l (lit " *** Overlap ***") &&
  !foundSubStrInStr l (lit " Alpha  occ. eigenvalues -- ") && !foundSubStrInStr l (lit " Beta  occ. eigenvalues -- ") &&
  !foundSubStrInStr l (lit " Alpha virt. eigenvalues -- ") && !foundSubStrInStr l (lit " Beta virt. eigenvalues -- ") && !l.contains '\n'

theorem dull_pun {l : Str} (h : dull l = true) : PunChat l := by
  unfold dull at h
  simp only [Bool.and_eq_true, Bool.not_eq_true'] at h
  obtain ⟨⟨⟨⟨⟨⟨⟨⟨⟨⟨⟨⟨h1, h2⟩, -⟩, -⟩, -⟩, -⟩, -⟩, -⟩, -⟩, -⟩, -⟩, -⟩, -⟩ := h
  intro spin hs
  cases spin
  · exact not_contains_of h1 hs
  · exact not_contains_of h2 hs.2

theorem dull_log {l : Str} (h : dull l = true) : LogChat l := by
  unfold dull at h
  simp only [Bool.and_eq_true, Bool.not_eq_true'] at h
  obtain ⟨⟨⟨⟨⟨⟨⟨⟨⟨⟨⟨⟨-, -⟩, h3⟩, h4⟩, h5⟩, h6⟩, h7⟩, h8⟩, h9⟩, h10⟩, h11⟩, h12⟩, -⟩ := h
  refine ⟨none_announced h3 h4 h5 h6 h7 h8, fun spin => ?_⟩
  cases spin
  · exact ⟨not_contains_of h9, not_contains_of h11⟩
  · exact ⟨not_contains_of h10, not_contains_of h12⟩

theorem dull_line {l : Str} (h : dull l = true) : IsLine l := by
  unfold dull at h
  simp only [Bool.and_eq_true, Bool.not_eq_true'] at h
  exact isLine_of h.2

/-- A heading before every file. -/
def headed (heading : List Str) (files : Str → Option Str) : Str → Option Str := fun name => (files name).map (unlines heading ++ ·)

theorem inserted_front (heading : List Str) (h : ∀ l ∈ heading, IsLine l) (t : Str) : Inserted t (unlines heading ++ t) 0 heading :=
  C154_inserted [] heading (fun _ h => absurd h (by simp)) h t

section
variable {α β : Type} [Zero α] [One α] [Add α] [Sub α] [Mul α] [Div α] [Num α] [DecidableEq β] {D : Type} [Args.Dbl D]

omit [Zero α] [One α] [Add α] [Sub α] [Div α] in
theorem headed_added (heading : List Str) (h : ∀ l ∈ heading, IsLine l ∧ PunChat l ∧ LogChat l) (files : Str → Option Str) : FilesAdded α files (headed heading files) where
  names name := by unfold headed; cases files name <;> simp
  pun name t t' _ e e' := by
    unfold headed at e'
    rw [e] at e'
    cases e'
    exact .lines .none (inserted_front heading (fun l hl => (h l hl).1) t) .here fun l hl => (h l hl).2.1
  log name t t' _ e e' := by
    unfold headed at e'
    rw [e] at e'
    cases e'
    exact .lines .none (inserted_front heading (fun l hl => (h l hl).1) t) .here fun l hl => (h l hl).2.2

/-- **C154 (a heading).** Put before all files, of whatever contents, it does not matter. -/
theorem C154_heading (tos : α → β) (heading : List Str) (h : ∀ l ∈ heading, IsLine l ∧ PunChat l ∧ LogChat l) (files : Str → Option Str)
    (hfit : ∀ name text, files name = some text → Fits (unlines heading ++ text)) (args : List Str) (hargs : ∀ v ∈ args, v.length + 4 < 2 ^ 63)
    (out : Res (Params.Params × Report α)) :
    Run.Does (fun fuel => calcJRun D tos files fuel args) out ↔ Run.Does (fun fuel => calcJRun D tos (headed heading files) fuel args) out := by
  refine C154_run tos files _ (fun name text e => fits_le ?_ (hfit name text e)) (fun name text e => ?_) (headed_added heading h files) args hargs out
  · rw [List.length_append]; omega
  · unfold headed at e
    cases e1 : files name with
    | none => rw [e1] at e; cases e
    | some t => rw [e1] at e; cases e; exact hfit name t e1

end

/-- Such a heading. -/
example : ∀ l ∈ [(lit " Entering Gaussian System, Link 0=g09"), [], (lit " Alpha and beta electrons: 4 4")], IsLine l ∧ PunChat l ∧ LogChat l := by
  intro l hl
  have h : dull l = true := by
    revert l hl
    decide +kernel
  exact ⟨dull_line h, dull_pun h, dull_log h⟩

/-! ### between tables -/

/-- Two orbitals and two lines. -/
def orbsTail : Str := (lit " 1 Alpha MO OE=0\n          1D+00\n          2D+00\n 2 Alpha MO OE=1\n          3D+00\n          4D+00\n end\n of file\n")

/-- The same with a heading. -/
def orbsHead : Str := (lit " title\n 1 Alpha MO OE=0\n          1D+00\n          2D+00\n 2 Alpha MO OE=1\n          3D+00\n          4D+00\n end\n of file\n")

/-- And with two lines after the table. -/
def orbsChat : Str :=
  (lit " title\n 1 Alpha MO OE=0\n          1D+00\n          2D+00\n 2 Alpha MO OE=1\n          3D+00\n          4D+00\n end\n not\n 12 Beta MO\n of file\n")

theorem head_first : Pun.Orbitals orbsHead .alpha none 2 [[(1 : Int), 2]] (some 2) 5 := by
  refine .more (k := 2) (row := [1, 2]) ⟨fun j => if j = 0 then [1] else [2], ?_, by decide, .inl (contains_of (by decide))⟩ (contains_of (by decide)) .here
  intro j hj
  have : j = 0 ∨ j = 1 := by omega
  rcases this with rfl | rfl
  · refine ⟨?_, by decide⟩
    rintro (h | ⟨c, h, -⟩)
    · exact not_contains_of (by decide) h
    · cases h
  · refine ⟨?_, by decide⟩
    rintro (h | ⟨c, h, -⟩)
    · exact not_contains_of (by decide) h
    · cases h

/-- Where the last lines are added: after the table. -/
theorem head_upto : Pun.Upto orbsHead 0 (fun _ => none) 8 (fun s => if s = .alpha then some [[(1 : Int), 2], [3, 4]] else none) := by
  refine .skip (by unfold Pun.NoLine; decide) (fun spin => dull_pun (by decide +kernel) spin) (.table (spin := .alpha) (rows := [[1, 2], [3, 4]]) (by unfold Pun.NoLine; decide) (contains_of (by decide)) (orbitals_table head_first ?_)
    (by unfold Pun.SameLength; decide) .here)
  refine .last (k := 2) (row := [3, 4]) ⟨fun j => if j = 0 then [3] else [4], ?_, by decide, .inr ⟨2, rfl, by decide⟩⟩ (not_contains_of (by decide))
  intro j hj
  have : j = 0 ∨ j = 1 := by omega
  rcases this with rfl | rfl
  · refine ⟨?_, by decide⟩
    rintro (h | ⟨c, h, h'⟩)
    · exact not_contains_of (by decide) h
    · cases h; exact absurd h' (by decide)
  · refine ⟨?_, by decide⟩
    rintro (h | ⟨c, h, h'⟩)
    · exact not_contains_of (by decide) h
    · cases h; exact absurd h' (by decide)

theorem orbs_added : PunAdded Int orbsTail orbsChat := by
  refine .lines (t' := orbsHead) (m := 8) (extra := [(lit " not"), (lit " 12 Beta MO")]) (.lines (m := 0) (extra := [(lit " title")]) .none ⟨by decide +kernel, by decide +kernel⟩ .here ?_)
    ⟨by decide +kernel, by decide +kernel⟩ head_upto ?_
  all_goals
    intro l hl
    apply dull_pun
    revert l hl
    decide +kernel

/-- Read alike. -/
example : SameReading Crlf.SamePun (fun n => (readPun (holding (lit "a.pun") orbsTail) n (lit "a.pun") : Res (PunData Int)))
    (fun n => (readPun (fun name => if name = (lit "a.pun") then some orbsChat else none) n (lit "a.pun") : Res (PunData Int))) :=
  C154_pun _ _ _ fits_pun (t := orbsTail) (t' := orbsChat) rfl rfl (by unfold Fits; decide +kernel) orbs_added

end Verif.Chatter
