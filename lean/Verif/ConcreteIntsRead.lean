import Verif.Props.IntsRead
import Verif.Props.IntsShort
import Verif.Props.IntsEnds
import Verif.ConcreteInts
/-
The hypotheses of C133 met: the sample files of `Verif.ConcreteBits` are short, so they are modest.
-/
namespace Verif
open Strings Readers QC Mat Log Pun Job Ints

namespace Sample

theorem short_files : ([lit "P", lit "1", lit "2"].all fun n =>
    (match filesS (n ++ lit ".log") with | some t => decide (t.length ≤ 23170) | none => false) &&
    (match filesS (n ++ lit ".pun") with | some t => decide (t.length ≤ 23170) | none => false)) = true := by
  decide +kernel

theorem log_modest {n : Str} (hn : n ∈ [lit "P", lit "1", lit "2"]) : ∀ t, filesS (n ++ lit ".log") = some t → ModestLog t := by
  intro t ht
  have ok := List.all_eq_true.1 short_files n hn
  rw [ht] at ok
  rw [Bool.and_eq_true] at ok
  exact (C133_short (α := Rat) (of_decide_eq_true ok.1)).1

theorem pun_modest {n : Str} (hn : n ∈ [lit "P", lit "1", lit "2"]) : ∀ t, filesS (n ++ lit ".pun") = some t → ModestPun Rat t := by
  intro t ht
  have ok := List.all_eq_true.1 short_files n hn
  rw [ht] at ok
  rw [Bool.and_eq_true] at ok
  exact (C133_short (of_decide_eq_true ok.2)).2

end Sample

open Sample

/-- C133 on the files: read with checked `int`s they give data, and the same data. -/
example : (∃ d, Ints.readPun filesS 1000 (lit "P.pun") = .ok d ∧ (Readers.readPun filesS 1000 (lit "P.pun") : Res (PunData Rat)) = .ok d) ∧
    ∃ d, Ints.readLog filesS 1000 (lit "P.log") = .ok d ∧ (Readers.readLog filesS 1000 (lit "P.log") : Res (LogData Rat)) = .ok d := by
  have ok := List.all_eq_true.1 oks (lit "P") (by decide)
  rw [Bool.and_eq_true] at ok
  obtain ⟨ok1, ok2⟩ := ok
  unfold logOk at ok1
  unfold punOk at ok2
  constructor
  · split at ok2
    · rename_i d e
      exact ⟨d, (C133_pun filesS _ (pun_modest (n := lit "P") (by decide)) 1000).1.trans e, e⟩
    · cases ok2
  · split at ok1
    · rename_i d e
      exact ⟨d, (C133_log filesS _ (log_modest (n := lit "P") (by decide)) 1000 (by decide)).trans e, e⟩
    · cases ok1

/-- C133 on a command line that is answered: with checked `int`s - reading included - calc_J ends with the numbers of C103. -/
example (D : Type) [Args.Dbl D] : ∃ par, Ends (fun fuel => Ints.wholeRun D (id : Rat → Rat) filesS fuel
      [(lit "-p_P"), (lit "P.pun"), (lit "-p_1"), (lit "1.pun"), (lit "-p_2"), (lit "2.pun")])
    (.ok (par, Machine.jobReport false (coefOf orbs1 1) (coefOf orbs2 1) ([2] : List Int).sum (energies energiesP).length ([2] ++ [2] : List Int).sum
      alignedC alignedS energiesP)) := by
  obtain ⟨par, h⟩ := C103_numbers D (id : Rat → Rat) filesS intelligibleA meantA rfl (spinP := .alpha) (spin1 := .alpha) (spin2 := .alpha) rfl rfl rfl
    monomer1 monomer2 dimerP (by decide) (by decide) rfl rfl (by simp) (by simp) (n1 := 0) (n2 := 0) (row1 := 1) (row2 := 1) rfl rfl
    (.inl (by decide)) (.inl (by decide)) (by decide) (by decide)
  refine ⟨par, C133_ends (id : Rat → Rat) filesS _ (by decide) (fun q par hq hpar => ?_) h⟩
  obtain ⟨q', par', hq', hpar', -, -, -, hf⟩ := params_of (D := D) intelligibleA meantA (n1 := 0) (n2 := 0) rfl rfl
    ⟨fun _ => by omega, fun _ => by omega⟩ ⟨fun _ => by omega, fun _ => by omega⟩
  have eq : q = q' := Res.ok.inj (hq.symm.trans hq')
  have epar : par = par' := Res.ok.inj (hpar.symm.trans (eq ▸ hpar'))
  rw [← epar] at hf
  have f1 : par.punP = lit "P" ++ lit ".pun" := hf (lit "--pun_P", lit "--log_P", [lit ".orb", lit ".7", lit ".pun"]) (by decide)
  have f2 : par.pun1 = lit "1" ++ lit ".pun" := hf (lit "--pun_1", lit "--log_1", [lit ".orb", lit ".7", lit ".pun"]) (by decide)
  have f3 : par.pun2 = lit "2" ++ lit ".pun" := hf (lit "--pun_2", lit "--log_2", [lit ".orb", lit ".7", lit ".pun"]) (by decide)
  have f4 : par.logP = lit "P" ++ lit ".log" := hf (lit "--log_P", lit "--pun_P", [lit ".log"]) (by decide)
  have f5 : par.log1 = lit "1" ++ lit ".log" := hf (lit "--log_1", lit "--pun_1", [lit ".log"]) (by decide)
  have f6 : par.log2 = lit "2" ++ lit ".log" := hf (lit "--log_2", lit "--pun_2", [lit ".log"]) (by decide)
  constructor
  · intro name hn
    rw [f1, f2, f3] at hn
    simp only [List.mem_cons, List.not_mem_nil, or_false] at hn
    rcases hn with rfl | rfl | rfl
    · exact pun_modest (n := lit "P") (by decide)
    · exact pun_modest (n := lit "1") (by decide)
    · exact pun_modest (n := lit "2") (by decide)
  · intro name hn
    rw [f4, f5, f6] at hn
    simp only [List.mem_cons, List.not_mem_nil, or_false] at hn
    rcases hn with rfl | rfl | rfl
    · exact ⟨log_modest (n := lit "P") (by decide), fun _ _ h => log_small (n := lit "P") (by decide) h⟩
    · exact ⟨log_modest (n := lit "1") (by decide), fun _ _ h => log_small (n := lit "1") (by decide) h⟩
    · exact ⟨log_modest (n := lit "2") (by decide), fun _ _ h => log_small (n := lit "2") (by decide) h⟩

end Verif
