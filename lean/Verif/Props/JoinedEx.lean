import Verif.Props.Joined
import Verif.Props.ChatterEx
/-
C156: the output of two calculations in one log file.
-/
namespace Verif.Joined
open Readers Log Strings CutOff QC Chatter
open LogLines (announces_alpha fits_log name_log)

/-- The first calculation. -/
def one : List Str := [(lit " Alpha  occ. eigenvalues --  -9 -8 -7"), (lit " Alpha virt. eigenvalues --   7"), (lit " Normal termination")]

/-- The second one. -/
def two : Str := (lit " Link 1\n Alpha  occ. eigenvalues --  -3 -2\n end\n")

theorem one_lines : ∀ l ∈ one, IsLine l := by
  intro l hl
  have : l.contains '\n' = false := by
    revert l hl
    decide +kernel
  exact isLine_of this

theorem one_energies : LogLines.EnergyLines (unlines one) .alpha 0 2 := by
  refine ⟨fun j hj => ?_, .inr ⟨not_contains_of (by decide +kernel), not_contains_of (by decide +kernel)⟩⟩
  have : j = 0 ∨ j = 1 := by omega
  rcases this with rfl | rfl
  · exact ⟨by unfold Pun.NoLine; decide +kernel, .inl (contains_of (by decide +kernel))⟩
  · exact ⟨by unfold Pun.NoLine; decide +kernel, .inr (contains_of (by decide +kernel))⟩

/-- What it says. -/
noncomputable def saysOne : LogLines.Known Int :=
  { LogLines.nothing with energies := fun s => if s = .alpha then some (LogLines.energiesOn (unlines one) 0 2, LogLines.occupiedOn Int (unlines one) .alpha 0 2) else none }

theorem one_first : LogFirst one two saysOne where
  lines := one_lines
  read := by
    refine .table (k := .energies .alpha) (e := 2) (f := fun d => { d with energies := fun s => if s = .alpha then some (LogLines.energiesOn (unlines one) 0 2, LogLines.occupiedOn Int (unlines one) .alpha 0 2) else d.energies s }) (by unfold Pun.NoLine; decide +kernel) ?_
      (.energies (k := 2) (by decide) one_energies) ?_
    · exact announces_alpha (by decide +kernel) (by decide +kernel) (by decide +kernel) (by decide +kernel)
    · exact .skip (by unfold Pun.NoLine; decide +kernel) (dull_log (by decide +kernel)).1 .here
  next spin := (dull_log (by decide +kernel : dull (lineAt two 0) = true)).2 spin

theorem two_energies : LogLines.EnergyLines two .alpha 1 1 := by
  refine ⟨fun j hj => ?_, .inr ⟨not_contains_of (by decide +kernel), not_contains_of (by decide +kernel)⟩⟩
  obtain rfl : j = 0 := by omega
  exact ⟨by unfold Pun.NoLine; decide +kernel, .inl (contains_of (by decide +kernel))⟩

noncomputable def saysTwo : LogLines.Known Int :=
  { LogLines.nothing with energies := fun s => if s = .alpha then some (LogLines.energiesOn two 1 1, LogLines.occupiedOn Int two .alpha 1 1) else none }

theorem two_says : LogLines.Says two 0 LogLines.nothing saysTwo := by
  refine .skip (by unfold Pun.NoLine; decide +kernel) (dull_log (by decide +kernel)).1 ?_
  refine .table (k := .energies .alpha) (e := 2) (f := fun d => { d with energies := fun s => if s = .alpha then some (LogLines.energiesOn two 1 1, LogLines.occupiedOn Int two .alpha 1 1) else d.energies s }) (by unfold Pun.NoLine; decide +kernel) ?_
    (.energies (k := 1) (by decide) two_energies) ?_
  · exact announces_alpha (by decide +kernel) (by decide +kernel) (by decide +kernel) (by decide +kernel)
  · exact .skip (by unfold Pun.NoLine; decide +kernel) (dull_log (by decide +kernel)).1 (.done (by unfold Pun.NoLine; decide +kernel))

/-- Both in one file. -/
def both : Str := unlines one ++ two

/-- The later energies count. -/
example : ∃ D, Ends (fun n => (readLog (holding (lit "a.log") both) n (lit "a.log") : Res (LogData Int))) (.ok D) ∧ D.getOE (lit "Alpha") = .ok [-3, -2] := by
  obtain ⟨D, h1, h2⟩ := LogLines.C120_says (α := Int) (holding (lit "a.log") both) _ both fits_log name_log rfl (by unfold Fits; decide +kernel) _ ((C156_log one_first).1 _ two_says)
  refine ⟨D, h1, (h2.energies .alpha).trans ?_⟩
  decide +kernel

theorem pun_chat (j : Nat) (h : foundSubStrInStr (lineAt (unlines one) j) (lit " MO ") = false) (spin : Log.Spin) : ¬ Pun.Announces (lineAt (unlines one) j) spin := by
  have h0 := not_contains_of h
  cases spin
  · rintro ⟨a, b, e⟩
    exact h0 ⟨a ++ (lit " 1 Alpha"), b, by rw [e]; simp⟩
  · rintro ⟨-, a, b, e⟩
    exact h0 ⟨a ++ (lit " 1 Beta"), b, by rw [e]; simp⟩

/-- And so calc_J takes no notice of the first calculation. -/
theorem joined_files : FilesJoined Int (holding (lit "a.log") two) (holding (lit "a.log") both) where
  names name := by
    unfold holding
    split <;> simp
  pun name t t' _ h h' := by
    unfold holding at h h'
    split at h
    · rename_i hn
      rw [if_pos hn] at h'
      cases h
      cases h'
      refine ⟨one, fun _ => none, rfl, ⟨one_lines, ?_⟩, fun _ _ _ _ => rfl⟩
      refine .skip (by unfold Pun.NoLine; decide +kernel) (pun_chat 0 ?_) (.skip (by unfold Pun.NoLine; decide +kernel) (pun_chat 1 ?_) (.skip (by unfold Pun.NoLine; decide +kernel) (pun_chat 2 ?_) .here))
      all_goals decide +kernel
    · cases h
  log name t t' _ h h' := by
    unfold holding at h h'
    split at h
    · rename_i hn
      rw [if_pos hn] at h'
      cases h
      cases h'
      refine ⟨one, saysOne, rfl, one_first, fun d2 hd => ?_⟩
      rw [log_says_once hd two_says]
      refine ⟨fun _ => rfl, fun spin hs => ?_, fun _ => rfl, fun x hx => hx⟩
      cases spin
      · cases hs
      · rfl
    · cases h

end Verif.Joined
