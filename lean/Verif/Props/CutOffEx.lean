import Verif.Props.CutOff
/-
C142: what is not noticed, in small files.
-/
namespace Verif.CutOff
open Readers Log Strings
open LogLines (announces_alpha fits_log name_log)

/-! ### a punch file -/

/-- Two orbitals. -/
def orbs : Str := (lit " 1 Alpha MO OE=0\n          1D+00\n          2D+00\n 2 Alpha MO OE=1\n          3D+00\n          4D+00\n")

/-- The same without the line end of the last line but one, and the last line. -/
def orbsMid : Str := (lit " 1 Alpha MO OE=0\n          1D+00\n          2D+00\n 2 Alpha MO OE=1\n          3D+00")

/-- With that line end. -/
def orbsEnd : Str := (lit " 1 Alpha MO OE=0\n          1D+00\n          2D+00\n 2 Alpha MO OE=1\n          3D+00\n")

theorem orbs_first : Pun.Orbitals orbs .alpha none 1 [[(1 : Int), 2]] (some 2) 4 := by
  refine .more (k := 2) (row := [1, 2]) ⟨fun j => if j = 0 then [1] else [2], ?_, by decide, .inl (contains_of (by decide))⟩ (contains_of (by decide)) .here
  intro j hj
  have : j = 0 ∨ j = 1 := by omega
  rcases this with rfl | rfl
  · refine ⟨?_, by decide⟩
    rintro (h | ⟨c, h, -⟩)
    · exact not_contains_of (by decide) h
    · cases h
  · refine ⟨?_, by decide⟩
    rintro (h | ⟨c, h, -⟩)
    · exact not_contains_of (by decide) h
    · cases h

theorem orbs_says : Pun.Says orbs 0 (fun _ => none) (fun s => if s = .alpha then some [[(1 : Int), 2], [3, 4]] else none) := by
  refine .table (spin := .alpha) (rows := [[1, 2], [3, 4]]) (e := 7) (by unfold Pun.NoLine; decide) (contains_of (by decide)) (orbitals_table orbs_first ?_)
    (by unfold Pun.SameLength; decide) (.done (.inl (by decide)))
  refine .last (k := 2) (row := [3, 4]) ⟨fun j => if j = 0 then [3] else [4], ?_, by decide, .inr ⟨2, rfl, by decide⟩⟩ (not_contains_of (by decide))
  intro j hj
  have : j = 0 ∨ j = 1 := by omega
  rcases this with rfl | rfl
  · refine ⟨?_, by decide⟩
    rintro (h | ⟨c, h, h'⟩)
    · exact not_contains_of (by decide) h
    · cases h; exact absurd h' (by decide)
  · refine ⟨?_, by decide⟩
    rintro (h | ⟨c, h, h'⟩)
    · exact not_contains_of (by decide) h
    · cases h; exact absurd h' (by decide)

/-- **C142 (wrong coefficients).** A punch file may be cut off such that the matrix has all its rows and columns, but another coefficient. -/
theorem C142_wrong_coefs : orbsMid <+: orbs ∧ ∃ (D D' : PunData Int) (M M' : Mat Int),
    Ends (fun n => readPun (holding (lit "a.pun") orbs) n (lit "a.pun")) (.ok D) ∧
    Ends (fun n => readPun (holding (lit "a.pun") orbsMid) n (lit "a.pun")) (.ok D') ∧
    D.getCoefsMatrix (lit "Alpha") = .ok M ∧ D'.getCoefsMatrix (lit "Alpha") = .ok M' ∧ M.rows = 2 ∧ M.cols = 2 ∧ M'.rows = 2 ∧ M'.cols = 2 ∧
    M.getElem2 2 2 = .ok 4 ∧ M'.getElem2 2 2 = .ok 3 := by
  refine ⟨by decide +kernel, ?_⟩
  obtain ⟨D, h1, h2, -⟩ := C119_says (holding (lit "a.pun") orbs) _ orbs fits_pun name_pun rfl (by unfold Fits; decide +kernel) _ orbs_says
  obtain ⟨M, e1, e2, e3, e4⟩ := (h2 .alpha).1 _ rfl
  have hcut : CutAt orbs orbsMid 4 (lit "          3D+00") := ⟨by decide +kernel, by decide +kernel, by decide +kernel⟩
  obtain ⟨D', h1', M', e1', e2', e3', -, e5'⟩ := C142_pun_again (fs := holding (lit "a.pun") orbsMid) (α := Int) (spin := .alpha) (q := 2) (k := 0) (w := [3]) (vals := fun _ => [])
    fits_pun name_pun rfl (by unfold Fits; decide +kernel) hcut .here (contains_of (by decide +kernel)) orbs_first (by decide) (fun j hj => by omega) rfl (by decide +kernel)
    ⟨not_contains_of (by decide +kernel), not_contains_of (by decide +kernel)⟩ (by decide) (by omega) (by decide)
  exact ⟨D, D', M, M', h1, h1', e1, e1', e2, e3, e2', e3', e4 1 (by decide) 1 (by decide), e5' 1 3 rfl⟩

/-- **C142 (no end).** Or such that it is never read to its end. -/
theorem C142_no_end : orbsEnd <+: orbs ∧ Hangs (fun n => (readPun (holding (lit "a.pun") orbsEnd) n (lit "a.pun") : Res (PunData Int))) := by
  refine ⟨by decide +kernel, ?_⟩
  have hcut : CutAt orbs orbsEnd 5 [] := ⟨by decide +kernel, by decide +kernel, List.nil_prefix⟩
  refine C142_pun_line_end (spin := .alpha) (k := 1) (vals := fun _ => [3]) fits_pun name_pun rfl (by unfold Fits; decide +kernel) hcut .here (contains_of (by decide +kernel)) orbs_first
    ?_ rfl rfl ?_
  · intro j hj
    obtain rfl : j = 0 := by omega
    refine ⟨?_, by decide⟩
    rintro (h | ⟨c, h, h'⟩)
    · exact not_contains_of (by decide) h
    · cases h; exact absurd h' (by decide)
  · intro c h
    cases h
    decide

/-- Between tables. -/
example : ∃ D, Ends (fun n => (readPun (holding (lit "a.pun") (lit " 1 Al")) n (lit "a.pun") : Res (PunData Int))) (.ok D) ∧ D.getCoefsMatrix (lit "Alpha") = .throw .invalidArgument := by
  have hcut : CutAt orbs (lit " 1 Al") 0 (lit " 1 Al") := ⟨by decide +kernel, by decide +kernel, by decide +kernel⟩
  obtain ⟨D, h1, h2⟩ := C142_pun_between (α := Int) (fs := holding (lit "a.pun") (lit " 1 Al")) fits_pun name_pun rfl (by unfold Fits; decide +kernel) hcut .here
    (fun spin => by
      cases spin
      · exact not_contains_of (by decide +kernel)
      · exact fun h => not_contains_of (by decide +kernel) h.2)
  exact ⟨D, h1, (h2 .alpha).2 rfl⟩

/-- In the title. -/
example : Hangs (fun n => (readPun (holding (lit "a.pun") (lit " 1 Alpha MO ")) n (lit "a.pun") : Res (PunData Int))) := by
  have hcut : CutAt orbs (lit " 1 Alpha MO ") 0 (lit " 1 Alpha MO ") := ⟨by decide +kernel, by decide +kernel, by decide +kernel⟩
  exact C142_pun_title (spin := .alpha) fits_pun name_pun rfl (by unfold Fits; decide +kernel) hcut .here (contains_of (by decide +kernel))

/-! ### energies -/

/-- Three occupied orbitals and one virtual one. -/
def levels : Str := (lit " Alpha  occ. eigenvalues --  -3 -2\n Alpha  occ. eigenvalues --  -1\n Alpha virt. eigenvalues --   34\n")

/-- After the first line. -/
def levelsEnd : Str := (lit " Alpha  occ. eigenvalues --  -3 -2\n")

/-- In the last line. -/
def levelsMid : Str := (lit " Alpha  occ. eigenvalues --  -3 -2\n Alpha  occ. eigenvalues --  -1\n Alpha virt. eigenvalues --   3")

theorem levels_announced : LogLines.Announces (lineAt levels 0) (.energies .alpha) :=
  announces_alpha (by decide +kernel) (by decide +kernel) (by decide +kernel) (by decide +kernel)

theorem none_announced {l : Str} (h1 : foundSubStrInStr l (lit "     Gross orbital populations:") = false) (h2 : foundSubStrInStr l (lit "Center     Atomic      Atomic") = false)
    (h3 : foundSubStrInStr l (lit "Center     Atomic     Atomic") = false) (h4 : foundSubStrInStr l (lit " Alpha  occ. eigenvalues --") = false)
    (h5 : foundSubStrInStr l (lit "  Beta  occ. eigenvalues --") = false) (h6 : foundSubStrInStr l (lit " *** Overlap ***") = false) :
    ∀ k, ¬ LogLines.Announces l k := by
  rintro k ⟨a, b, -, h, -⟩
  cases k with
  | population => exact not_contains_of h1 h
  | coords =>
    rcases h with h | h
    · exact not_contains_of h2 h
    · exact not_contains_of h3 h
  | energies spin =>
    cases spin
    · exact not_contains_of h4 h
    · exact not_contains_of h5 h
  | overlap => exact not_contains_of h6 h

theorem levels_occ {k : Nat} {spin : Spin} (h : ∀ j < k, LogLines.IsOcc spin (lineAt levels j)) :
    LogLines.occupiedOn Int levels spin 0 k = ((List.range k).map (fun j => (LogLines.lineEnergies (lineAt levels j) : List Int).length)).sum := by
  unfold LogLines.occupiedOn
  congr 1
  refine List.map_congr_left fun j hj => ?_
  rw [List.mem_range] at hj
  rw [Nat.zero_add, if_pos (h j hj)]

/-- **C142 (fewer energies).** A log file may be cut off such that its HOMO level is another one. -/
theorem C142_fewer_energies : levelsEnd <+: levels ∧ ∃ D, Ends (fun n => (readLog (holding (lit "a.log") levelsEnd) n (lit "a.log") : Res (LogData Int))) (.ok D) ∧
    D.getOE (lit "Alpha") = .ok [-3, -2] ∧ D.getHOMOLevel (lit "Alpha") = .ok 2 := by
  refine ⟨by decide +kernel, ?_⟩
  have hcut : CutAt levels levelsEnd 1 [] := ⟨by decide +kernel, by decide +kernel, List.nil_prefix⟩
  have hocc : LogLines.IsOcc .alpha (lineAt levels 0) := contains_of (by decide +kernel)
  obtain ⟨D, h1, h2, h3⟩ := C142_log_energies (α := Int) (fs := holding (lit "a.log") levelsEnd) (k := 1) fits_log name_log rfl (by unfold Fits; decide +kernel) hcut .here levels_announced
    (Nat.le_refl _) rfl (fun x hx => by obtain rfl : x = 0 := by omega
                                        exact .inl hocc)
    ⟨none_announced (by decide) (by decide) (by decide) (by decide) (by decide) (by decide), not_contains_of (by decide), not_contains_of (by decide)⟩
  refine ⟨D, h1, h2.trans (by decide +kernel), h3.trans ?_⟩
  rw [levels_occ (k := 1) (spin := .alpha) (fun j hj => by obtain rfl : j = 0 := by omega
                                                           exact hocc)]
  decide +kernel

/-- **C142 (half a number).** Or such that one of its energies is another number. -/
theorem C142_half_number : levelsMid <+: levels ∧ ∃ D, Ends (fun n => (readLog (holding (lit "a.log") levelsMid) n (lit "a.log") : Res (LogData Int))) (.ok D) ∧
    D.getOE (lit "Alpha") = .ok [-3, -2, -1, 3] ∧ D.getHOMOLevel (lit "Alpha") = .ok 3 := by
  refine ⟨by decide +kernel, ?_⟩
  have hcut : CutAt levels levelsMid 2 (lit " Alpha virt. eigenvalues --   3") := ⟨by decide +kernel, by decide +kernel, by decide +kernel⟩
  have hocc : ∀ j < 2, LogLines.IsOcc .alpha (lineAt levels j) := by
    intro j hj
    have : j = 0 ∨ j = 1 := by omega
    rcases this with rfl | rfl <;> exact contains_of (by decide +kernel)
  have hno : ¬ LogLines.IsOcc .alpha (lit " Alpha virt. eigenvalues --   3") := not_contains_of (by decide +kernel)
  obtain ⟨D, h1, h2, h3⟩ := C142_log_energy_line (α := Int) (fs := holding (lit "a.log") levelsMid) (k := 2) fits_log name_log rfl (by unfold Fits; decide +kernel) hcut .here levels_announced
    (by omega) rfl (fun x hx => by rw [Nat.zero_add]; exact .inl (hocc x hx)) (.inr (contains_of (by decide +kernel)))
  refine ⟨D, h1, h2.trans (by decide +kernel), h3.trans ?_⟩
  rw [levels_occ (k := 2) (spin := .alpha) hocc, if_neg hno]
  decide +kernel

/-! ### overlaps -/

/-- Six rows, in two blocks. -/
def six : Str := (lit " *** Overlap ***\n      1 2 3 4 5\n 1  1D+00\n 2  2D+00  1D+00\n 3  2D+00  2D+00  1D+00\n 4  2D+00  2D+00  2D+00  1D+00\n 5  2D+00  2D+00  2D+00  2D+00  1D+00\n 6  2D+00  2D+00  2D+00  2D+00  2D+00\n      6\n 6  1D+00\n")

/-- Without the last row. -/
def sixEnd : Str := (lit " *** Overlap ***\n      1 2 3 4 5\n 1  1D+00\n 2  2D+00  1D+00\n 3  2D+00  2D+00  1D+00\n 4  2D+00  2D+00  2D+00  1D+00\n 5  2D+00  2D+00  2D+00  2D+00  1D+00\n 6  2D+00  2D+00  2D+00  2D+00  2D+00\n      6\n")

/-- With the first two rows only. -/
def sixTwo : Str := (lit " *** Overlap ***\n      1 2 3 4 5\n 1  1D+00\n 2  2D+00  1D+00\n")

/-- With the title only. -/
def sixTitle : Str := (lit " *** Overlap ***\n")

def sixVals (b r : Nat) : List Int :=
  if b = 0 then (if r = 0 then [] else if r ≤ 5 then List.replicate (r - 1) 2 ++ [1] else List.replicate 5 2) else if b = 1 ∧ r = 6 then [1] else []

theorem six_lower : LogLines.Lower sixVals := by
  intro b r
  unfold sixVals
  split
  · rename_i hb
    subst hb
    split
    · simp
    · split
      · simp only [List.length_append, List.length_replicate, List.length_singleton]; omega
      · simp only [List.length_replicate]; omega
  · split
    · rename_i h
      rw [h.1, h.2]; simp
    · simp

theorem announces_overlap {l : Str} (h : foundSubStrInStr l (lit " *** Overlap ***") = true)
    (h1 : foundSubStrInStr l (lit "     Gross orbital populations:") = false) (h2 : foundSubStrInStr l (lit "Center     Atomic      Atomic") = false)
    (h3 : foundSubStrInStr l (lit "Center     Atomic     Atomic") = false) (h4 : foundSubStrInStr l (lit " Alpha  occ. eigenvalues --") = false)
    (h5 : foundSubStrInStr l (lit "  Beta  occ. eigenvalues --") = false) : LogLines.Announces l .overlap := by
  refine ⟨[.population, .coords, .energies .alpha, .energies .beta], _, rfl, contains_of h, ?_⟩
  intro k hk
  have : k = .population ∨ k = .coords ∨ k = .energies .alpha ∨ k = .energies .beta := by simpa using hk
  rcases this with rfl | rfl | rfl | rfl
  · exact not_contains_of h1
  · rintro (e | e)
    · exact not_contains_of h2 e
    · exact not_contains_of h3 e
  · exact not_contains_of h4
  · exact not_contains_of h5

theorem six_announced : LogLines.Announces (lineAt six 0) .overlap :=
  announces_overlap (by decide +kernel) (by decide +kernel) (by decide +kernel) (by decide +kernel) (by decide +kernel) (by decide +kernel)

theorem six_table : LogLines.OverlapAt six 0 6 sixVals := by
  refine ⟨by omega, ⟨?_, ?_, 6, by decide +kernel, by omega⟩, ?_⟩
  · intro j hj
    have : j = 0 ∨ j = 1 ∨ j = 2 ∨ j = 3 ∨ j = 4 ∨ j = 5 := by omega
    rcases this with rfl | rfl | rfl | rfl | rfl | rfl <;> decide +kernel
  · intro r h1 h2
    have : r = 1 ∨ r = 2 ∨ r = 3 ∨ r = 4 ∨ r = 5 ∨ r = 6 := by omega
    rcases this with rfl | rfl | rfl | rfl | rfl | rfl <;> decide +kernel
  · intro b r hb h1 h2
    have : b = 0 ∧ r = 1 ∨ b = 0 ∧ r = 2 ∨ b = 0 ∧ r = 3 ∨ b = 0 ∧ r = 4 ∨ b = 0 ∧ r = 5 ∨ b = 0 ∧ r = 6 ∨ b = 1 ∧ r = 6 := by omega
    rcases this with ⟨rfl, rfl⟩ | ⟨rfl, rfl⟩ | ⟨rfl, rfl⟩ | ⟨rfl, rfl⟩ | ⟨rfl, rfl⟩ | ⟨rfl, rfl⟩ | ⟨rfl, rfl⟩ <;> exact ⟨by decide +kernel, by decide⟩

/-- **C142 (zeros).** The matrix of a file that is cut off may have a zero on its diagonal. -/
theorem C142_zero_norm : sixEnd <+: six ∧ ∃ D, Ends (fun n => (readLog (holding (lit "a.log") sixEnd) n (lit "a.log") : Res (LogData Int))) (.ok D) ∧
    ∃ M, D.getOverlapMatrix = .ok M ∧ M.rows = 6 ∧ M.getElem2 6 5 = .ok 2 ∧ M.getElem2 6 6 = .ok 0 := by
  refine ⟨by decide +kernel, ?_⟩
  have hcut : CutAt six sixEnd 9 [] := ⟨by decide +kernel, by decide +kernel, List.nil_prefix⟩
  obtain ⟨D, h1, M, h2, h3, -, h4⟩ := C142_log_zeros (α := Int) (fs := holding (lit "a.log") sixEnd) fits_log name_log rfl (by unfold Fits; decide +kernel) hcut .here six_announced six_table
    six_lower (by omega) (by decide +kernel) rfl
  exact ⟨D, h1, M, h2, h3, (h4 6 5 (by omega) (by omega) (by omega) (by omega)).trans (by decide +kernel),
    (h4 6 6 (by omega) (by omega) (by omega) (by omega)).trans (by decide +kernel)⟩

/-- **C142 (fewer rows).** Or it may be smaller. -/
theorem C142_two_rows : sixTwo <+: six ∧ ∃ D, Ends (fun n => (readLog (holding (lit "a.log") sixTwo) n (lit "a.log") : Res (LogData Int))) (.ok D) ∧
    ∃ M, D.getOverlapMatrix = .ok M ∧ M.rows = 2 ∧ M.cols = 2 ∧ M.getElem2 2 1 = .ok 2 := by
  refine ⟨by decide +kernel, ?_⟩
  have hcut : CutAt six sixTwo 4 [] := ⟨by decide +kernel, by decide +kernel, List.nil_prefix⟩
  obtain ⟨D, h1, M, h2, h3, h3', h4⟩ := C142_log_fewer_rows (α := Int) (fs := holding (lit "a.log") sixTwo) (k := 2) fits_log name_log rfl (by unfold Fits; decide +kernel) hcut .here six_announced
    six_table six_lower (by omega) (by omega) (by omega) rfl
  exact ⟨D, h1, M, h2, h3, h3', (h4 2 1 (by omega) (by omega) (by omega) (by omega)).trans (by decide +kernel)⟩

example : Ends (fun n => (readLog (holding (lit "a.log") sixTitle) n (lit "a.log") : Res (LogData Int))) (.throw .invalidArgument) := by
  have hcut : CutAt six sixTitle 1 [] := ⟨by decide +kernel, by decide +kernel, List.nil_prefix⟩
  exact C142_log_no_row (α := Int) (fs := holding (lit "a.log") sixTitle) fits_log name_log rfl (by unfold Fits; decide +kernel) hcut .here six_announced (by omega) (by omega) rfl

/-! ### the others -/

/-- Positions without the line that ends them. -/
example : (∃ x : LogLines.Fault, Ends (fun n => (readLog (holding (lit "a.log") (lit "Center     Atomic      Atomic\n\n\n 1 1 0 4 5 6\n")) n (lit "a.log") : Res (LogData Int))) x.out) ∨
    Hangs (fun n => (readLog (holding (lit "a.log") (lit "Center     Atomic      Atomic\n\n\n 1 1 0 4 5 6\n")) n (lit "a.log") : Res (LogData Int))) := by
  have hcut : CutAt LogLines.four (lit "Center     Atomic      Atomic\n\n\n 1 1 0 4 5 6\n") 4 [] := ⟨by decide +kernel, by decide +kernel, List.nil_prefix⟩
  refine C142_log_refused (fs := holding (lit "a.log") (lit "Center     Atomic      Atomic\n\n\n 1 1 0 4 5 6\n")) (j := 0) fits_log name_log rfl (by unfold Fits; decide +kernel) hcut .here
    (by omega) (LogLines.announces_coords (by decide +kernel) (by decide +kernel)) (.inl ⟨rfl, fun x h1 h2 => ?_, not_contains_of (by decide)⟩)
  obtain rfl : x = 3 := by omega
  exact not_contains_of (by decide +kernel)

/-- After the positions. -/
example : ∃ D, Ends (fun n => (readLog (holding (lit "a.log") (lit "Center     Atomic      Atomic\n\n\n 1 1 0 4 5 6\n---------------------------------------------------------------------\n Alp")) n
    (lit "a.log") : Res (LogData Int))) (.ok D) ∧ D.getCoords = [[4], [5], [6]] ∧ D.getOE (lit "Alpha") = .throw .outOfRange := by
  have hcut : CutAt LogLines.four (lit "Center     Atomic      Atomic\n\n\n 1 1 0 4 5 6\n---------------------------------------------------------------------\n Alp") 5 (lit " Alp") :=
    ⟨by decide +kernel, by decide +kernel, by decide +kernel⟩
  obtain ⟨D, h1, h2⟩ := C142_log_between (α := Int) (fs := holding (lit "a.log") (lit "Center     Atomic      Atomic\n\n\n 1 1 0 4 5 6\n---------------------------------------------------------------------\n Alp"))
    fits_log name_log rfl (by unfold Fits; decide +kernel) hcut
    (.table (by unfold Pun.NoLine; decide +kernel) (LogLines.announces_coords (by decide +kernel) (by decide +kernel)) LogLines.four_coords .here)
    (none_announced (by decide) (by decide) (by decide) (by decide) (by decide) (by decide))
  exact ⟨D, h1, h2.coords, h2.energies .alpha⟩

end Verif.CutOff
