import Verif.ConcreteJob
import Verif.Props.Safe
/-
Concrete jobs that meet the hypotheses of the theorems about undefined behaviour. No general theorem uses this file.
-/
namespace Verif
open Strings Readers QC Mat Log Pun Job

namespace Sample

/-- As monomer 2, but somewhere else. -/
def outX : Output Rat := ⟨[.plain (lit "(5D15.8)")], .table .alpha 2 orbs2, [
    .coords sampleHeader1 (lit " Number     Number       Type") sampleRuler [
      ((lit "      1          1           0        7.000000    8.000000    9.000000"), 7, 8, 9)] sampleRuler,
    .energies .alpha energies2,
    .population (lit "     Gross orbital populations:") (lit "                          1") atoms2 (lit "         Condensed to atoms")], []⟩

theorem outX_ok : PunFile outX.pun outX.ending ∧ LogFile outX.log outX.tail := by
  refine ⟨⟨?_, coefTable_of (by decide +kernel)⟩, log_of (by decide +kernel) (by decide +kernel)⟩
  intro p hp
  simp only [outX, List.mem_singleton] at hp
  subst hp
  exact pun_plain_of (by decide) (by decide) (by decide)

def moreFiles (name : Str) : Option Str :=
  if name = (lit "X.pun") then some (punText outX.pun outX.ending)
  else if name = (lit "X.log") then some (logText outX.log outX.tail)
  else files name

theorem storedX : Stored moreFiles (lit "X.pun") (lit "X.log") outX :=
  ⟨outX_ok.1, outX_ok.2, by unfold Fits; decide, by unfold Fits; decide, ⟨[], (lit "X"), [], rfl, .inl rfl, by decide, by decide, by simp⟩,
    ⟨[], (lit "X"), [], rfl, .inl rfl, by decide, by decide, by simp⟩, rfl, rfl⟩

theorem stored1' : Stored moreFiles (lit "1.pun") (lit "1.log") out1 :=
  ⟨stored1.pun, stored1.log, stored1.punFit, stored1.logFit, stored1.punPlain, stored1.logPlain, rfl, rfl⟩

theorem storedP' : Stored moreFiles (lit "P.pun") (lit "P.log") outP :=
  ⟨storedP.pun, storedP.log, storedP.punFit, storedP.logFit, storedP.punPlain, storedP.logPlain, rfl, rfl⟩

theorem orbitalsX : Orbitals outX .alpha orbs2 2 energies2 := ⟨rfl, by decide +kernel, rfl⟩

theorem countsX : BasisCounts outX [2] := by
  refine ⟨atoms2, by simp [outX, populations], by decide +kernel, ?_, by decide +kernel⟩
  intro as has
  simp only [outX, populations, List.mem_singleton] at has
  rw [has]

end Sample

section
open Sample
variable {D : Type} [Args.Dbl D]

theorem sample_parse_overlap : ∃ q : Args.Parser D, Args.parse (fsOf files) Args.calcJ
      [(lit "-l_P"), (lit "A.log"), (lit "-l_1"), (lit "A.log"), (lit "-l_2"), (lit "2.log")] = .ok q ∧
    Args.prepareParameters q = .ok (sampleParams (lit "A") (lit "A") (lit "2") (lit "HOMO") false) := by
  have : (Args.parse (fsOf files) (Args.calcJ (D := D)) [(lit "-l_P"), (lit "A.log"), (lit "-l_1"), (lit "A.log"), (lit "-l_2"), (lit "2.log")]
      >>= Args.prepareParameters) = .ok (sampleParams (lit "A") (lit "A") (lit "2") (lit "HOMO") false) := by kernel_rfl
  rw [Res.bind_eq_ok] at this
  exact this

theorem sample_parse_lost : ∃ q : Args.Parser D, Args.parse (fsOf moreFiles) Args.calcJ
      [(lit "-p_P"), (lit "P.pun"), (lit "-p_1"), (lit "1.pun"), (lit "-p_2"), (lit "X.pun")] = .ok q ∧
    Args.prepareParameters q = .ok (sampleParams (lit "P") (lit "1") (lit "X") (lit "HOMO") false) := by
  have : (Args.parse (fsOf moreFiles) (Args.calcJ (D := D)) [(lit "-p_P"), (lit "P.pun"), (lit "-p_1"), (lit "1.pun"), (lit "-p_2"), (lit "X.pun")]
      >>= Args.prepareParameters) = .ok (sampleParams (lit "P") (lit "1") (lit "X") (lit "HOMO") false) := by kernel_rfl
  rw [Res.bind_eq_ok] at this
  exact this

/-- The dimer's log file has no overlap table. -/
theorem sample_no_overlap : Ends (fun fuel => calcJMain D (id : Rat → Rat) files fuel
    [(lit "-l_P"), (lit "A.log"), (lit "-l_1"), (lit "A.log"), (lit "-l_2"), (lit "2.log")]) .ub := by
  obtain ⟨q, hq, hpar⟩ := sample_parse_overlap (D := D)
  exact C80_refuted_overlap (id : Rat → Rat) files _ hq hpar storedA storedA stored2 rfl

/-- The hypotheses of `C80_causes_partial` are met. -/
example : ∃ fuel, calcJMain D (id : Rat → Rat) files fuel
    [(lit "-l_P"), (lit "A.log"), (lit "-l_1"), (lit "A.log"), (lit "-l_2"), (lit "2.log")] = .ub := by
  obtain ⟨-, N, h⟩ := sample_no_overlap (D := D)
  exact ⟨N, h N (Nat.le_refl _)⟩

/-- Monomer 2 is not where the dimer has it. -/
example : Ends (fun fuel => calcJMain D (id : Rat → Rat) moreFiles fuel
      [(lit "-p_P"), (lit "P.pun"), (lit "-p_1"), (lit "1.pun"), (lit "-p_2"), (lit "X.pun")]) .ub ∨
    ∃ N, ∀ fuel, N ≤ fuel → calcJMain D (id : Rat → Rat) moreFiles fuel
      [(lit "-p_P"), (lit "P.pun"), (lit "-p_1"), (lit "1.pun"), (lit "-p_2"), (lit "X.pun")] = .diverge := by
  obtain ⟨q, hq, hpar⟩ := sample_parse_lost (D := D)
  exact C80_refuted_atom (id : Rat → Rat) moreFiles _ hq hpar rfl storedP' stored1' storedX (spinP := .alpha) (spin1 := .alpha) (spin2 := .alpha)
    rfl rfl rfl orbitalsP orbitals1 orbitalsX (by decide) (by decide) (by decide) (by decide) (S := overlapP) rfl rfl rfl rfl (by decide)
    (basis := [2, 2]) (by decide) (by decide) (List.cons_ne_nil _ _) (List.cons_ne_nil _ _) (List.cons_ne_nil _ _) countsP
    ⟨_, counts1, by simp⟩ ⟨_, countsX, by simp⟩ (x := (7, 8, 9)) (by decide +kernel) (by unfold Alike; decide +kernel)

end
end Verif
