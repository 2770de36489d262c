import Verif.Props.Sectioned
import Verif.Props.JoinedEx
/-
C157: a log file with the energies of the two spins, the other way round.
-/
namespace Verif.Sectioned
open Readers Log Strings CutOff QC Chatter Joined
open LogLines (announces_alpha fits_log name_log)

/-- The section with the energies for alpha electrons. -/
def alphas : List Str := [(lit " Link 1"), (lit " Alpha  occ. eigenvalues --  -3 -2"), (lit " Alpha virt. eigenvalues --   7"), (lit " end")]

/-- And that for beta electrons. -/
def betas : List Str := [(lit " Link 2"), (lit "  Beta  occ. eigenvalues --  -5"), (lit " end")]

theorem announces_beta {l : Str} (h : foundSubStrInStr l (lit "  Beta  occ. eigenvalues --") = true)
    (h1 : foundSubStrInStr l (lit "     Gross orbital populations:") = false) (h2 : foundSubStrInStr l (lit "Center     Atomic      Atomic") = false)
    (h3 : foundSubStrInStr l (lit "Center     Atomic     Atomic") = false) (h4 : foundSubStrInStr l (lit " Alpha  occ. eigenvalues --") = false) :
    LogLines.Announces l (.energies .beta) := by
  refine ⟨[.population, .coords, .energies .alpha], _, rfl, contains_of h, ?_⟩
  intro k hk
  have : k = .population ∨ k = .coords ∨ k = .energies .alpha := by simpa using hk
  rcases this with rfl | rfl | rfl
  · exact not_contains_of h1
  · rintro (e | e)
    · exact not_contains_of h2 e
    · exact not_contains_of h3 e
  · exact not_contains_of h4

/-- What they say. -/
noncomputable def saysAlphas : LogLines.Known Int :=
  { LogLines.nothing with energies := fun s => if s = .alpha then some (LogLines.energiesOn (unlines alphas) 1 2, LogLines.occupiedOn Int (unlines alphas) .alpha 1 2) else none }

noncomputable def saysBetas : LogLines.Known Int :=
  { LogLines.nothing with energies := fun s => if s = .beta then some (LogLines.energiesOn (unlines betas) 1 1, LogLines.occupiedOn Int (unlines betas) .beta 1 1) else none }

theorem alphas_energies : LogLines.EnergyLines (unlines alphas) .alpha 1 2 := by
  refine ⟨fun j hj => ?_, .inr ⟨not_contains_of (by decide +kernel), not_contains_of (by decide +kernel)⟩⟩
  have : j = 0 ∨ j = 1 := by omega
  rcases this with rfl | rfl
  · exact ⟨by unfold Pun.NoLine; decide +kernel, .inl (contains_of (by decide +kernel))⟩
  · exact ⟨by unfold Pun.NoLine; decide +kernel, .inr (contains_of (by decide +kernel))⟩

theorem betas_energies : LogLines.EnergyLines (unlines betas) .beta 1 1 := by
  refine ⟨fun j hj => ?_, .inr ⟨not_contains_of (by decide +kernel), not_contains_of (by decide +kernel)⟩⟩
  obtain rfl : j = 0 := by omega
  exact ⟨by unfold Pun.NoLine; decide +kernel, .inl (contains_of (by decide +kernel))⟩

theorem lines_of {ls : List Str} (h : (ls.all fun l => !l.contains '\n') = true) : ∀ l ∈ ls, IsLine l := fun l hl =>
  isLine_of (by simpa using List.all_eq_true.1 h l hl)

theorem alphas_section : LogSection alphas saysAlphas where
  lines := lines_of (by decide +kernel)
  read := by
    refine .skip (by unfold Pun.NoLine; decide +kernel) (dull_log (by decide +kernel)).1 ?_
    refine .table (k := .energies .alpha) (e := 3) (f := fun d => { d with energies := fun s => if s = .alpha then some (LogLines.energiesOn (unlines alphas) 1 2, LogLines.occupiedOn Int (unlines alphas) .alpha 1 2) else d.energies s }) (by unfold Pun.NoLine; decide +kernel) ?_
      (.energies (k := 2) (by decide) alphas_energies) ?_
    · exact announces_alpha (by decide +kernel) (by decide +kernel) (by decide +kernel) (by decide +kernel)
    · exact .skip (by unfold Pun.NoLine; decide +kernel) (dull_log (by decide +kernel)).1 .here
  first l hl := by
    cases hl
    exact (dull_log (by decide +kernel)).2

theorem betas_section : LogSection betas saysBetas where
  lines := lines_of (by decide +kernel)
  read := by
    refine .skip (by unfold Pun.NoLine; decide +kernel) (dull_log (by decide +kernel)).1 ?_
    refine .table (k := .energies .beta) (e := 2) (f := fun d => { d with energies := fun s => if s = .beta then some (LogLines.energiesOn (unlines betas) 1 1, LogLines.occupiedOn Int (unlines betas) .beta 1 1) else d.energies s }) (by unfold Pun.NoLine; decide +kernel) ?_
      (.energies (k := 1) (by decide) betas_energies) ?_
    · exact announces_beta (by decide +kernel) (by decide +kernel) (by decide +kernel) (by decide +kernel) (by decide +kernel)
    · exact .skip (by unfold Pun.NoLine; decide +kernel) (dull_log (by decide +kernel)).1 .here
  first l hl := by
    cases hl
    exact (dull_log (by decide +kernel)).2

/-- A last line. -/
def last : Str := (lit " Normal termination\n")

def oneWay : Str := unlines (alphas ++ betas) ++ last
def otherWay : Str := unlines (betas ++ alphas) ++ last

theorem rearranged : LogRearranged Int oneWay otherWay := by
  refine ⟨[(alphas, saysAlphas), (betas, saysBetas)], [(betas, saysBetas), (alphas, saysAlphas)], last, rfl, rfl, .swap _ _ _, ?_, ?_, ?_⟩
  · intro s hs
    have : s = (alphas, saysAlphas) ∨ s = (betas, saysBetas) := by simpa using hs
    rcases this with rfl | rfl
    · exact alphas_section
    · exact betas_section
  · refine List.Pairwise.cons (fun s hs => ?_) (List.pairwise_singleton _ _)
    obtain rfl : s = (betas, saysBetas) := by simpa using hs
    refine ⟨.inl rfl, fun spin => ?_, .inl rfl⟩
    cases spin
    · exact .inr rfl
    · exact .inl rfl
  · exact (dull_log (by decide +kernel : dull (lineAt last 0) = true)).2

theorem pun_chat' {ls : List Str} (j : Nat) (h : foundSubStrInStr (lineAt (unlines ls) j) (lit " MO ") = false) (spin : Log.Spin) :
    ¬ Pun.Announces (lineAt (unlines ls) j) spin := by
  have h0 := not_contains_of h
  cases spin
  · rintro ⟨a, b, e⟩
    exact h0 ⟨a ++ (lit " 1 Alpha"), b, by rw [e]; simp⟩
  · rintro ⟨-, a, b, e⟩
    exact h0 ⟨a ++ (lit " 1 Beta"), b, by rw [e]; simp⟩

/-- The file is found the other way round. -/
theorem rearranged_files : FilesRearranged Int (holding (lit "a.log") oneWay) (holding (lit "a.log") otherWay) where
  names name := by
    unfold holding
    split <;> simp
  pun name t t' _ h h' := by
    unfold holding at h h'
    split at h
    · rename_i hn
      rw [if_pos hn] at h'
      cases h
      cases h'
      refine ⟨[(alphas, fun _ => none), (betas, fun _ => none)], [(betas, fun _ => none), (alphas, fun _ => none)], last, rfl, rfl, .swap _ _ _, ?_, ?_⟩
      · intro s hs
        have : s = (alphas, fun _ => none) ∨ s = (betas, fun _ => none) := by simpa using hs
        rcases this with rfl | rfl
        · refine ⟨lines_of (by decide +kernel), .skip (by unfold Pun.NoLine; decide +kernel) (pun_chat' 0 ?_) (.skip (by unfold Pun.NoLine; decide +kernel) (pun_chat' 1 ?_)
            (.skip (by unfold Pun.NoLine; decide +kernel) (pun_chat' 2 ?_) (.skip (by unfold Pun.NoLine; decide +kernel) (pun_chat' 3 ?_) .here)))⟩
          all_goals decide +kernel
        · refine ⟨lines_of (by decide +kernel), .skip (by unfold Pun.NoLine; decide +kernel) (pun_chat' 0 ?_) (.skip (by unfold Pun.NoLine; decide +kernel) (pun_chat' 1 ?_)
            (.skip (by unfold Pun.NoLine; decide +kernel) (pun_chat' 2 ?_) .here))⟩
          all_goals decide +kernel
      · exact List.Pairwise.cons (fun s hs => fun _ => .inl rfl) (List.pairwise_singleton _ _)
    · cases h
  log name t t' _ h h' := by
    unfold holding at h h'
    split at h
    · rename_i hn
      rw [if_pos hn] at h'
      cases h
      cases h'
      exact rearranged
    · cases h

/-- The two texts are not the same. -/
example : oneWay ≠ otherWay := by decide +kernel

/-- And both are read. -/
example : ∃ D, Ends (fun n => (readLog (holding (lit "a.log") oneWay) n (lit "a.log") : Res (LogData Int))) (.ok D) ∧ D.getOE (lit "Alpha") = .ok [-3, -2, 7] ∧ D.getOE (lit "Beta") = .ok [-5] := by
  have hl : LogLines.Says last 0 LogLines.nothing (LogLines.nothing : LogLines.Known Int) :=
    .skip (by unfold Pun.NoLine; decide +kernel) (dull_log (by decide +kernel)).1 (.done (by unfold Pun.NoLine; decide +kernel))
  obtain ⟨secs, h⟩ : ∃ secs : List (List Str × LogLines.Known Int), secs = [(alphas, saysAlphas), (betas, saysBetas)] := ⟨_, rfl⟩
  have hs : ∀ s ∈ secs, LogSection s.1 s.2 := by
    intro s hs
    have : s = (alphas, saysAlphas) ∨ s = (betas, saysBetas) := by simpa [h] using hs
    rcases this with rfl | rfl
    · exact alphas_section
    · exact betas_section
  have h0 := (log_all hs (dull_log (by decide +kernel : dull (lineAt last 0) = true)).2).1 _ hl
  subst h
  obtain ⟨D, h1, h2⟩ := LogLines.C120_says (α := Int) (holding (lit "a.log") oneWay) _ oneWay fits_log name_log rfl (by unfold Fits; decide +kernel) _ h0
  refine ⟨D, h1, (h2.energies .alpha).trans ?_, (h2.energies .beta).trans ?_⟩
  · decide +kernel
  · decide +kernel

end Verif.Sectioned
