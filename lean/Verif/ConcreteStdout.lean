import Verif.Props.Stdout
import Verif.ConcreteLine
/-
C128 on concrete files. No general theorem uses this file.
-/
namespace Verif.Run
open Strings Readers QC Mat Log Pun Job Args Sample

section

/-- Two requests for information are reached before the mistake, the third is not. -/
theorem someShows : Shows [(lit "-cite"), (lit "-cp"), (lit "-h"), (lit "-s_1"), (lit "up"), (lit "-h")] [(lit "-cite"), (lit "-h")] :=
  .info (by decide) (.switch (f := lit "--counter_poise") (by decide) (by rintro u us h; cases h; decide) (.info (by decide)
    (.bad (f := lit "--spin_1") (s := lit "-s_1") (k := .spin) (by decide) (.inr rfl) (by simp [ValueOk]))))

/-- After the version is asked for nothing more is shown. -/
example : Shows [(lit "-h"), (lit "-version"), (lit "-cite")] [(lit "-h")] := .info (by decide) (.version (by decide))

/-- On this command line the usage is shown, and as it is flushed the citation before it is, too. -/
example (D : Type) [Args.Dbl D] (print : Rat → Str) (t : Str) : ∃ w, Performs (fun fuel => (calcJWrites D (id : Rat → Rat) print someAbout filesS fuel
      [(lit "-cite"), (lit "-h"), (lit "-cp"), (lit "-s_1"), (lit "up")] : Wrote (Params.Params × Report Rat))) w ∧ w.res = .throw .invalidArgument ∧
    (Seen w t ↔ t = (lit "\nRunning calc_J VERSION 1.9\n\nCitation: Brown, J. S. (2018). Catnip (Version 1.9). [Software]. Available from https://x.org.\n\nUsage: calc_J <options(s)> SOURCES")
      ++ calcJHelp) := by
  obtain ⟨pun, hpun⟩ := Classical.axiomOfChoice (fun name => (C122_reading (α := Rat) filesS name).1)
  obtain ⟨log, hlog⟩ := Classical.axiomOfChoice (fun name => (C122_reading (α := Rat) filesS name).2)
  refine ⟨_, (C128_writes (D := D) (id : Rat → Rat) print someAbout filesS filesS_fit pun hpun log hlog _ (by decide) _).2
    (.refused (e := .invalidArgument) (us := [(lit "-cite"), (lit "-h")]) ?_ ?_), rfl, ?_⟩
  · exact .info (by decide) (.info (by decide) (.switch (f := lit "--counter_poise") (by decide)
      (by rintro u us h; cases h; decide) (.bad (f := lit "--spin_1") (s := lit "-s_1") (k := .spin) (by decide) (.inr rfl) (.wrong (by simp [ValueOk]) (by simp)))))
  · exact .info (by decide) (.info (by decide) (.switch (f := lit "--counter_poise") (by decide) (by rintro u us h; cases h; decide)
      (.bad (f := lit "--spin_1") (s := lit "-s_1") (k := .spin) (by decide) (.inr rfl) (by simp [ValueOk]))))
  · have e : preamble someAbout [(lit "-cite"), (lit "-h")] = [Ev.text (lit "\nRunning calc_J VERSION 1.9\n"), .flush,
        .text (lit "\nCitation: Brown, J. S. (2018). Catnip (Version 1.9). [Software]. Available from https://x.org.\n\n"),
        .text (lit "Usage: calc_J <options(s)> SOURCES"), .text calcJHelp] ++ [.flush] := by
      have a1 : answer someAbout (lit "-cite") = [.text (lit "\nCitation: Brown, J. S. (2018). Catnip (Version 1.9). [Software]. Available from https://x.org.\n\n")] := by
        decide +kernel
      have a2 : answer someAbout (lit "-h") = [.text (lit "Usage: calc_J <options(s)> SOURCES"), .text calcJHelp, .flush] := by
        unfold answer
        rw [if_pos (.inr rfl)]
        rfl
      have a3 : greeting someAbout = (lit "\nRunning calc_J VERSION 1.9\n") := by decide +kernel
      unfold preamble
      rw [a3]
      simp only [List.flatMap_cons, List.flatMap_nil, a1, a2]
      rfl
    show (sure _ <+: t ∧ t <+: said _) ↔ _
    rw [e, sure_append_flush, said_append]
    have e2 : said ([Ev.text (lit "\nRunning calc_J VERSION 1.9\n"), .flush,
        .text (lit "\nCitation: Brown, J. S. (2018). Catnip (Version 1.9). [Software]. Available from https://x.org.\n\n"),
        .text (lit "Usage: calc_J <options(s)> SOURCES"), .text calcJHelp]) = (lit "\nRunning calc_J VERSION 1.9\n\nCitation: Brown, J. S. (2018). Catnip (Version 1.9). [Software]. Available from https://x.org.\n\nUsage: calc_J <options(s)> SOURCES") ++ calcJHelp := by
      simp only [said, List.append_nil, List.cons_append, List.nil_append]
    rw [e2]
    have e3 : said [Ev.flush] = [] := rfl
    rw [e3, List.append_nil]
    constructor
    · rintro ⟨h1, h2⟩
      exact List.IsPrefix.eq_of_length h2 (Nat.le_antisymm h2.length_le h1.length_le)
    · intro h
      rw [h]
      exact ⟨List.prefix_rfl, List.prefix_rfl⟩

/-- A run with numbers: everything is written, the numbers last. -/
example (D : Type) [Args.Dbl D] (print : Rat → Str) : ∃ (par : Params.Params) (w : Wrote (Params.Params × Report Rat)),
    Performs (fun fuel => calcJWrites D (id : Rat → Rat) print someAbout filesS fuel
      [(lit "-p_P"), (lit "P.pun"), (lit "-p_1"), (lit "1.pun"), (lit "-p_2"), (lit "2.pun")]) w ∧
    ∃ r, w.res = .ok (par, r) ∧ said w.evs = greeting someAbout ++ sixFiles par ++ spinsOrbitals par ++ numbers print r := by
  let args : List Str := [(lit "-p_P"), (lit "P.pun"), (lit "-p_1"), (lit "1.pun"), (lit "-p_2"), (lit "2.pun")]
  obtain ⟨pun, hpun⟩ := Classical.axiomOfChoice (fun name => (C122_reading (α := Rat) filesS name).1)
  obtain ⟨log, hlog⟩ := Classical.axiomOfChoice (fun name => (C122_reading (α := Rat) filesS name).2)
  obtain ⟨par, h⟩ := C103_numbers D (id : Rat → Rat) filesS intelligibleA meantA rfl (spinP := .alpha) (spin1 := .alpha) (spin2 := .alpha) rfl rfl rfl
    monomer1 monomer2 dimerP (by decide) (by decide) rfl rfl (by simp) (by simp) (n1 := 0) (n2 := 0) (row1 := 1) (row2 := 1) rfl rfl
    (.inl (by decide)) (.inl (by decide)) (by decide) (by decide)
  obtain ⟨w, hw⟩ := C128_total (D := D) (id : Rat → Rat) print someAbout filesS filesS_fit args (by decide)
  obtain ⟨-, N, h⟩ := h
  obtain ⟨hd, M, hM⟩ := hw
  have hN := h (max N M) (Nat.le_max_left _ _)
  have hM := hM (max N M) (Nat.le_max_right _ _)
  have hw : Performs (fun fuel => calcJWrites D (id : Rat → Rat) print someAbout filesS fuel args) w := ⟨hd, M, by assumption⟩
  simp only [] at hN hM
  have ho := calcJOutput_eq (D := D) (id : Rat → Rat) print someAbout filesS (max N M) args
  rw [parsing_plain someAbout filesS (by decide) (by decide), hN, Res.ok_bind] at ho
  have er : w.res = .ok (par, _) := Does.unique hd (show Does _ (.ok _) from ⟨(by intro h; cases h), N, fun n hn =>
    (calcJWrites_res (D := D) (id : Rat → Rat) print someAbout filesS n args).trans (h n hn)⟩)
  refine ⟨par, w, hw, _, er, ?_⟩
  unfold calcJOutput at ho
  dsimp only at ho
  rw [calcJWrites_res, hN, Res.ok_bind, hM] at ho
  rw [Res.ok.inj ho, outputText, greeting_eq, sixFiles_eq, spinsOrbitals_eq, numbers_eq]
  simp [said]

end
end Verif.Run
