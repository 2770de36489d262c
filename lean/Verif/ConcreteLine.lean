import Verif.Props.EveryLine
import Verif.ConcreteEnd
/-
C124 on concrete files. No general theorem uses this file.
-/
namespace Verif.Run
open Strings Readers QC Mat Log Pun Job Args Sample

section

theorem filesS_fit : ∀ name text, filesS name = some text → Fits text := by
  intro name text h
  have hf : ∀ name ∈ [(lit "G.pun"), (lit "G.log"), (lit "N.pun"), (lit "N.log"), (lit "M.pun"), (lit "M.log"), (lit "1.pun"), (lit "1.log"),
      (lit "2.pun"), (lit "2.log"), (lit "P.pun"), (lit "P.log"), (lit "F.pun"), (lit "F.log"), (lit "A.pun"), (lit "A.log")],
      ((filesS name).map fun t => decide (t.length < 2 ^ 63)) = some true := by decide +kernel
  by_cases hn : name ∈ [(lit "G.pun"), (lit "G.log"), (lit "N.pun"), (lit "N.log"), (lit "M.pun"), (lit "M.log"), (lit "1.pun"), (lit "1.log"),
      (lit "2.pun"), (lit "2.log"), (lit "P.pun"), (lit "P.log"), (lit "F.pun"), (lit "F.log"), (lit "A.pun"), (lit "A.log")]
  · have := hf name hn
    rw [h] at this
    simpa [Fits] using this
  · have e : filesS name = none := by
      simp only [List.mem_cons, List.not_mem_nil, or_false, not_or] at hn
      obtain ⟨h1, h2, h3, h4, h5, h6, h7, h8, h9, h10, h11, h12, h13, h14, h15, h16⟩ := hn
      unfold filesS files
      rw [if_neg h1, if_neg h2, if_neg h3, if_neg h4, if_neg h5, if_neg h6, if_neg h7, if_neg h8, if_neg h9, if_neg h10, if_neg h11, if_neg h12,
        if_neg h13, if_neg h14, if_neg h15, if_neg h16]
    rw [e] at h
    cases h

/-- On this command line with these files `Line` says: a report, and its numbers. -/
example (pun : Str → Res (Pun.Known Rat)) (hpun : ∀ name, PunFile filesS name (pun name))
    (log : Str → Res (LogLines.Known Rat × List Int)) (hlog : ∀ name, LogFile filesS name (log name)) :
    ∃ par, Line (id : Rat → Rat) filesS pun log [(lit "-p_P"), (lit "P.pun"), (lit "-p_1"), (lit "1.pun"), (lit "-p_2"), (lit "2.pun")]
    (.ok (par, Machine.jobReport false (coefOf orbs1 1) (coefOf orbs2 1) ([2] : List Int).sum (energies energiesP).length ([2] ++ [2] : List Int).sum
      alignedC alignedS energiesP)) := by
  let _ : Dbl (Option Int) := dblNaN
  obtain ⟨par, h⟩ := C103_numbers (Option Int) (id : Rat → Rat) filesS intelligibleA meantA rfl (spinP := .alpha) (spin1 := .alpha) (spin2 := .alpha) rfl rfl rfl
    monomer1 monomer2 dimerP (by decide) (by decide) rfl rfl (by simp) (by simp) (n1 := 0) (n2 := 0) (row1 := 1) (row2 := 1) rfl rfl
    (.inl (by decide)) (.inl (by decide)) (by decide) (by decide)
  exact ⟨par, (C124_line (D := Option Int) _ _ filesS_fit pun hpun log hlog _ (by decide) _).1 h⟩

/-- A command line with a mistake, with the same files. -/
example (D : Type) [Args.Dbl D] : Does (fun fuel => (calcJRun D (id : Rat → Rat) filesS fuel [(lit "-cp"), (lit "-s_1"), (lit "up")] : Res (Params.Params × Report Rat)))
    (.throw .invalidArgument) := by
  obtain ⟨pun, hpun⟩ := Classical.axiomOfChoice (fun name => (C122_reading (α := Rat) filesS name).1)
  obtain ⟨log, hlog⟩ := Classical.axiomOfChoice (fun name => (C122_reading (α := Rat) filesS name).2)
  refine (C124_line (D := D) _ _ filesS_fit pun hpun log hlog _ (by decide) _).2 (.refused (.switch (f := lit "--counter_poise") (by decide)
    (by rintro u us h; cases h; decide) (.bad (f := lit "--spin_1") (s := lit "-s_1") (k := .spin) (by decide) (.inr rfl) (.wrong (by simp [ValueOk]) (by simp)))))

end
end Verif.Run
