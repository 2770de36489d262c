import Verif.Props.IntsJob
import Verif.ConcreteEnd
/-
The hypotheses of C125 met: the sample files of `Verif.ConcreteBits` are small.
-/
namespace Verif
open Strings Readers QC Mat Log Pun Job Ints

namespace Sample

def smallLog (d : LogData Rat) : Bool :=
  (match d.S with | some S => decide (S.rows ≤ 46340) | none => true) && d.oe.all (fun e => decide (e.2.length ≤ 46340)) &&
  d.xyz.all (fun x => decide (x.length ≤ 46340)) && decide (d.getBasisFuncCount.sum ≤ 46340)

theorem smallLog_of {d : LogData Rat} (h : smallLog d = true) : SmallLog d := by
  unfold smallLog at h
  simp only [Bool.and_eq_true, decide_eq_true_eq, List.all_eq_true] at h
  obtain ⟨⟨⟨h1, h2⟩, h3⟩, h4⟩ := h
  refine ⟨fun S hS => ?_, fun spin es he => ?_, h3, h4⟩
  · unfold LogData.getOverlapMatrix at hS
    split at hS
    · rename_i m hm
      cases hS
      rw [hm] at h1
      simpa using h1
    · cases hS
  · unfold LogData.getOE at he
    split at he
    · rename_i v hv
      cases he
      exact h2 _ (Map.get_mem hv)
    · cases he

def smallPun (d : PunData Rat) : Bool := d.all fun e => decide (e.2.rows ≤ 46340 ∧ e.2.cols ≤ 46340)

theorem smallPun_of {d : PunData Rat} (h : smallPun d = true) : SmallPun d := by
  unfold smallPun at h
  simp only [decide_eq_true_eq, List.all_eq_true] at h
  refine ⟨fun spin m hm => ?_⟩
  unfold PunData.getCoefsMatrix at hm
  split at hm
  · rename_i v hv
    cases hm
    exact h _ (Map.get_mem hv)
  · cases hm

def logOk (name : Str) : Bool := match (readLog filesS 1000 name : Res (LogData Rat)) with | .ok d => smallLog d | _ => false
def punOk (name : Str) : Bool := match (readPun filesS 1000 name : Res (PunData Rat)) with | .ok d => smallPun d | _ => false

theorem oks : ([lit "P", lit "1", lit "2"].all fun n => logOk (n ++ lit ".log") && punOk (n ++ lit ".pun")) = true := by
  decide +kernel

theorem same_ok {β : Type} {f : Nat → Res β} (hm : Mono f) {n m : Nat} {a b : β} (h : f n = .ok a) (h' : f m = .ok b) : a = b := by
  rcases Nat.le_total n m with l | l
  · have := hm n m l (by rw [h]; simp)
    rw [h, h'] at this
    exact (Res.ok.inj this).symm
  · have := hm m n l (by rw [h']; simp)
    rw [h, h'] at this
    exact Res.ok.inj this

theorem log_small {n : Str} (hn : n ∈ [lit "P", lit "1", lit "2"]) {fuel : Nat} {d : LogData Rat}
    (h : readLog filesS fuel (n ++ lit ".log") = .ok d) : SmallLog d := by
  have ok := oks
  rw [List.all_eq_true] at ok
  have ok := ok n hn
  rw [Bool.and_eq_true] at ok
  have ok := ok.1
  unfold logOk at ok
  split at ok
  · rename_i d' e
    rw [same_ok (readLog_mono filesS (n ++ lit ".log")) h e]
    exact smallLog_of ok
  · cases ok

theorem pun_small {n : Str} (hn : n ∈ [lit "P", lit "1", lit "2"]) {fuel : Nat} {d : PunData Rat}
    (h : readPun filesS fuel (n ++ lit ".pun") = .ok d) : SmallPun d := by
  have ok := oks
  rw [List.all_eq_true] at ok
  have ok := ok n hn
  rw [Bool.and_eq_true] at ok
  have ok := ok.2
  unfold punOk at ok
  split at ok
  · rename_i d' e
    rw [same_ok (readPun_mono filesS (n ++ lit ".pun")) h e]
    exact smallPun_of ok
  · cases ok

end Sample

open Sample

/-- C125 on a command line that is answered: with checked `int`s calc_J ends with the numbers of C103. -/
example (D : Type) [Args.Dbl D] : ∃ par, Ends (fun fuel => Ints.calcJRun D (id : Rat → Rat) filesS fuel
      [(lit "-p_P"), (lit "P.pun"), (lit "-p_1"), (lit "1.pun"), (lit "-p_2"), (lit "2.pun")])
    (.ok (par, Machine.jobReport false (coefOf orbs1 1) (coefOf orbs2 1) ([2] : List Int).sum (energies energiesP).length ([2] ++ [2] : List Int).sum
      alignedC alignedS energiesP)) := by
  have key : ∀ fuel, Ints.calcJRun D (id : Rat → Rat) filesS fuel [(lit "-p_P"), (lit "P.pun"), (lit "-p_1"), (lit "1.pun"), (lit "-p_2"), (lit "2.pun")] =
      calcJRun D (id : Rat → Rat) filesS fuel [(lit "-p_P"), (lit "P.pun"), (lit "-p_1"), (lit "1.pun"), (lit "-p_2"), (lit "2.pun")] := by
    intro fuel
    refine C125_calcJ (id : Rat → Rat) filesS fuel _ (by decide) fun q par hq hpar => ?_
    obtain ⟨q', par', hq', hpar', -, -, -, hf⟩ := params_of (D := D) intelligibleA meantA (n1 := 0) (n2 := 0) rfl rfl
      ⟨fun _ => by omega, fun _ => by omega⟩ ⟨fun _ => by omega, fun _ => by omega⟩
    have eq : q = q' := Res.ok.inj (hq.symm.trans hq')
    have epar : par = par' := Res.ok.inj (hpar.symm.trans (eq ▸ hpar'))
    rw [← epar] at hf
    have f1 : par.punP = lit "P" ++ lit ".pun" := hf (lit "--pun_P", lit "--log_P", [lit ".orb", lit ".7", lit ".pun"]) (by decide)
    have f2 : par.pun1 = lit "1" ++ lit ".pun" := hf (lit "--pun_1", lit "--log_1", [lit ".orb", lit ".7", lit ".pun"]) (by decide)
    have f3 : par.pun2 = lit "2" ++ lit ".pun" := hf (lit "--pun_2", lit "--log_2", [lit ".orb", lit ".7", lit ".pun"]) (by decide)
    have f4 : par.logP = lit "P" ++ lit ".log" := hf (lit "--log_P", lit "--pun_P", [lit ".log"]) (by decide)
    have f5 : par.log1 = lit "1" ++ lit ".log" := hf (lit "--log_1", lit "--pun_1", [lit ".log"]) (by decide)
    have f6 : par.log2 = lit "2" ++ lit ".log" := hf (lit "--log_2", lit "--pun_2", [lit ".log"]) (by decide)
    constructor
    · intro name d hn h
      rw [f1, f2, f3] at hn
      simp only [List.mem_cons, List.not_mem_nil, or_false] at hn
      rcases hn with rfl | rfl | rfl
      · exact pun_small (n := lit "P") (by decide) h
      · exact pun_small (n := lit "1") (by decide) h
      · exact pun_small (n := lit "2") (by decide) h
    · intro name d hn h
      rw [f4, f5, f6] at hn
      simp only [List.mem_cons, List.not_mem_nil, or_false] at hn
      rcases hn with rfl | rfl | rfl
      · exact log_small (n := lit "P") (by decide) h
      · exact log_small (n := lit "1") (by decide) h
      · exact log_small (n := lit "2") (by decide) h
  obtain ⟨par, h⟩ := C103_numbers D (id : Rat → Rat) filesS intelligibleA meantA rfl (spinP := .alpha) (spin1 := .alpha) (spin2 := .alpha) rfl rfl rfl
    monomer1 monomer2 dimerP (by decide) (by decide) rfl rfl (by simp) (by simp) (n1 := 0) (n2 := 0) (row1 := 1) (row2 := 1) rfl rfl
    (.inl (by decide)) (.inl (by decide)) (by decide) (by decide)
  exact ⟨par, h.1, h.2.choose, fun fuel hfuel => (key fuel).trans (h.2.choose_spec fuel hfuel)⟩

end Verif
