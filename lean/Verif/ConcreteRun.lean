import Verif.Props.RunLine
import Verif.Props.RunEdges
import Verif.ConcreteEnd
/-
C122 on concrete files. No general theorem uses this file.
-/
namespace Verif.Run
open Strings Readers QC Mat Log Args Sample

section
variable {D : Type} [Args.Dbl D]

/-- Six empty files. -/
private def empties (name : Str) : Option Str :=
  if name ∈ [(lit "P.pun"), (lit "1.pun"), (lit "2.pun"), (lit "P.log"), (lit "1.log"), (lit "2.log")] then some [] else none

private theorem empties_meant : FilesMeant empties asgA fileA := by
  intro x hx
  simp only [inputFiles, List.mem_cons, List.not_mem_nil, or_false] at hx
  rcases hx with rfl | rfl | rfl | rfl | rfl | rfl
  · exact ⟨.explicit (by decide) rfl, ⟨(lit "P"), by decide⟩⟩
  · exact ⟨.explicit (by decide) rfl, ⟨(lit "1"), by decide⟩⟩
  · exact ⟨.explicit (by decide) rfl, ⟨(lit "2"), by decide⟩⟩
  · exact ⟨.sister (w := lit "P.pun") (dir := []) (core := lit "P") (e := lit ".log") (by decide) (by decide) (parts (lit "P") (lit ".pun") (by decide)) (by decide) rfl,
      ⟨(lit "P"), by decide⟩⟩
  · exact ⟨.sister (w := lit "1.pun") (dir := []) (core := lit "1") (e := lit ".log") (by decide) (by decide) (parts (lit "1") (lit ".pun") (by decide)) (by decide) rfl,
      ⟨(lit "1"), by decide⟩⟩
  · exact ⟨.sister (w := lit "2.pun") (dir := []) (core := lit "2") (e := lit ".log") (by decide) (by decide) (parts (lit "2") (lit ".pun") (by decide)) (by decide) rfl,
      ⟨(lit "2"), by decide⟩⟩

private theorem empty_pun (n : Str) (h : n ∈ [(lit "P"), (lit "1"), (lit "2")]) : PunFile (α := Rat) empties (n ++ (lit ".pun")) (.ok fun _ => none) := by
  simp only [List.mem_cons, List.not_mem_nil, or_false] at h
  rcases h with rfl | rfl | rfl
  · exact .read (text := []) ⟨[], (lit "P"), [], rfl, .inl rfl, by decide, by decide, by simp⟩ rfl (.done (by unfold Pun.NoLine; decide))
  · exact .read (text := []) ⟨[], (lit "1"), [], rfl, .inl rfl, by decide, by decide, by simp⟩ rfl (.done (by unfold Pun.NoLine; decide))
  · exact .read (text := []) ⟨[], (lit "2"), [], rfl, .inl rfl, by decide, by decide, by simp⟩ rfl (.done (by unfold Pun.NoLine; decide))

private theorem no_counts : LogLines.Counts [] [] := ⟨[], .nil, by simp, by simp, rfl⟩

private theorem empty_log (n : Str) (h : n ∈ [(lit "P"), (lit "1"), (lit "2")]) :
    LogFile (α := Rat) empties (n ++ (lit ".log")) (.ok (LogLines.nothing, [])) := by
  simp only [List.mem_cons, List.not_mem_nil, or_false] at h
  rcases h with rfl | rfl | rfl
  · exact .read (text := []) ⟨[], (lit "P"), [], rfl, .inl rfl, by decide, by decide, by simp⟩ rfl (.done (by unfold Pun.NoLine; decide)) no_counts
  · exact .read (text := []) ⟨[], (lit "1"), [], rfl, .inl rfl, by decide, by decide, by simp⟩ rfl (.done (by unfold Pun.NoLine; decide)) no_counts
  · exact .read (text := []) ⟨[], (lit "2"), [], rfl, .inl rfl, by decide, by decide, by simp⟩ rfl (.done (by unfold Pun.NoLine; decide)) no_counts

/-- What calc_J does with six empty files is undefined. -/
example : Ends (fun fuel => calcJRun D (id : Rat → Rat) empties fuel
    [(lit "-p_P"), (lit "P.pun"), (lit "-p_1"), (lit "1.pun"), (lit "-p_2"), (lit "2.pun")]) .ub := by
  have hfit : ∀ name text, empties name = some text → Fits text := by
    intro name text h
    unfold empties at h
    split at h
    · cases h; unfold Fits; decide
    · cases h
  obtain ⟨par, -, -, h⟩ := (C122_command_line (D := D) (id : Rat → Rat) empties hfit intelligibleA).1 fileA 0 0 empties_meant rfl rfl (by decide) (by decide)
  exact h (spinP := .alpha) (spin1 := .alpha) (spin2 := .alpha) rfl rfl rfl (empty_pun (lit "P") (by decide)) (empty_pun (lit "1") (by decide))
    (empty_pun (lit "2") (by decide)) (empty_log (lit "P") (by decide)) (empty_log (lit "1") (by decide)) (empty_log (lit "2") (by decide))

/-- The same with `C122_undefined`: there is no table of overlaps. -/
example : ∃ fuel, (calcJRun D (id : Rat → Rat) empties fuel
    [(lit "-p_P"), (lit "P.pun"), (lit "-p_1"), (lit "1.pun"), (lit "-p_2"), (lit "2.pun")] : Res (Params.Params × Report Rat)) = .ub := by
  obtain ⟨q, par, hq, hpar, req, -, -, hfile⟩ := params_of D intelligibleA empties_meant (n1 := 0) (n2 := 0) rfl rfl (by decide) (by decide)
  have f1 : par.punP = (lit "P.pun") := hfile (lit "--pun_P", lit "--log_P", [lit ".orb", lit ".7", lit ".pun"]) (by decide)
  have f2 : par.pun1 = (lit "1.pun") := hfile (lit "--pun_1", lit "--log_1", [lit ".orb", lit ".7", lit ".pun"]) (by decide)
  have f3 : par.pun2 = (lit "2.pun") := hfile (lit "--pun_2", lit "--log_2", [lit ".orb", lit ".7", lit ".pun"]) (by decide)
  have f4 : par.logP = (lit "P.log") := hfile (lit "--log_P", lit "--pun_P", [lit ".log"]) (by decide)
  have f5 : par.log1 = (lit "1.log") := hfile (lit "--log_1", lit "--pun_1", [lit ".log"]) (by decide)
  have f6 : par.log2 = (lit "2.log") := hfile (lit "--log_2", lit "--pun_2", [lit ".log"]) (by decide)
  refine (C122_undefined (id : Rat → Rat) empties _ hq hpar ?_ ?_ (spinP := .alpha) (spin1 := .alpha) (spin2 := .alpha) req.spinP req.spin1 req.spin2
    (by rw [f1]; exact empty_pun (lit "P") (by decide)) (by rw [f2]; exact empty_pun (lit "1") (by decide))
    (by rw [f3]; exact empty_pun (lit "2") (by decide)) (by rw [f4]; exact empty_log (lit "P") (by decide))
    (by rw [f5]; exact empty_log (lit "1") (by decide)) (by rw [f6]; exact empty_log (lit "2") (by decide))).2 (.inl rfl)
  · rw [f1, f2, f3, f4, f5, f6]
    unfold Fits
    decide
  · intro name _ text h
    unfold empties at h
    split at h
    · cases h; unfold Fits; decide
    · cases h

/-- A spin that is asked for. -/
example : ∃ spin : Log.Spin, askedSpin asgA (lit "--spin_1") = spin.name := C122_spins intelligibleA _ (by decide)

/-- The files of a complete job: `C122_total` applies. -/
example : ∃ out : Res (Params.Params × Report Rat), Does (fun fuel => calcJRun D (id : Rat → Rat) files fuel
    [(lit "-p_P"), (lit "P.pun"), (lit "-p_1"), (lit "1.pun"), (lit "-p_2"), (lit "2.pun")]) out := by
  refine C122_total (D := D) (id : Rat → Rat) files ?_ intelligibleA
  intro name text h
  unfold files at h
  unfold Fits
  repeat' split at h
  all_goals first
    | (cases h; done)
    | (cases h; decide +kernel)

end

/-! ### what is done with what the files say -/

/-- The dimer of two atoms with a basis function each. -/
private def dimer : Found Rat := ⟨some [[1, 0], [0, 1]], some ([-2, 3], 1), some [(0, 0, 0), (1, 0, 0)], []⟩

/-- A monomer. -/
private def monomer (x : Rat) : Found Rat := ⟨some [[1]], some ([-1], 1), some [(x, 0, 0)], []⟩

private def overlaps : Nat × List (Nat × Nat × Rat) := (2, [(1, 1, 1), (2, 1, 0), (2, 2, 1)])

/-- Nothing to put in order: the report. -/
example : ∃ r, outcome (id : Rat → Rat) false (lit "HOMO") 0 (lit "HOMO") 0 (some overlaps) dimer (monomer 0) (monomer 1) = .ok r := by
  unfold outcome
  simp only [dimer, monomer, need, Res.ok_bind]
  rw [if_pos (by decide)]
  simp only [ne_eq, not_true_eq_false, false_and, if_false, Res.ok_bind]
  have e : chosen [[(1 : Rat)]] ([-1], 1) (lit "HOMO") 0 = .ok 1 := rfl
  simp only [e, Res.ok_bind]
  rw [if_pos (by refine ⟨?_, rfl⟩; unfold Conforming; decide)]
  exact ⟨_, rfl⟩

/-- No overlaps: undefined. -/
example : outcome (id : Rat → Rat) false (lit "HOMO") 0 (lit "HOMO") 0 none dimer (monomer 0) (monomer 1) = .ub := rfl

/-- No energies: an exception. -/
example : outcome (id : Rat → Rat) false (lit "HOMO") 0 (lit "HOMO") 0 (some overlaps) { dimer with energies := none } (monomer 0) (monomer 1) =
    .throw .outOfRange := rfl

/-- Sizes that do not fit: an exception. -/
example : outcome (id : Rat → Rat) true (lit "HOMO") 0 (lit "HOMO") 0 (some overlaps) dimer (monomer 0) (monomer 1) = .throw .invalidArgument := by
  unfold outcome
  simp only [dimer, monomer, need, Res.ok_bind]
  rw [if_neg (by decide)]

/-- Monomer 2 is not where the dimer has it: undefined. -/
example : outcome (id : Rat → Rat) false (lit "HOMO") 0 (lit "HOMO") 0 (some overlaps) { dimer with counts := [1, 1] } { monomer 0 with counts := [1] }
    { monomer 5 with counts := [1] } = .ub := by
  rw [(C122_edges (id : Rat → Rat) false _ _ _ _ _ _ _ _).1]
  refine .inr ⟨overlaps, _, _, _, _, _, _, _, _, _, rfl, rfl, rfl, rfl, rfl, rfl, rfl, rfl, rfl, rfl, by decide, by simp [monomer, dimer], ?_⟩
  have hr : requests (([((0 : Rat), (0 : Rat), (0 : Rat))].length : Nat) : Int) (partners (id : Rat → Rat) [(5, 0, 0)] [(0, 0, 0), (1, 0, 0)]) = [(2, -1)] := by
    decide +kernel
  have hr' : requests 0 (partners (id : Rat → Rat) [(0, 0, 0)] [(0, 0, 0), (1, 0, 0)]) = [(1, 1)] := by decide +kernel
  simp only [ComesTo, monomer, dimer, Bool.false_eq_true, if_false]
  rw [hr, hr']
  refine ⟨⟨by decide, by decide⟩, ?_, by decide⟩
  rintro ⟨served, p, rest, q, h1, h2, h3, h4⟩
  cases served with
  | cons a l => cases l <;> simp at h1
  | nil =>
    simp only [List.nil_append, List.cons.injEq] at h1
    obtain ⟨rfl, rfl⟩ := h1
    cases h3 with
    | step hs _ => cases hs

end Verif.Run
