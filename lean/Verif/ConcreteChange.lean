import Verif.Props.Changing
import Verif.ConcreteEnd
/-
C127 on concrete files. No general theorem uses this file.
-/
namespace Verif.Run
open Strings Readers QC Mat Log Pun Job Args Sample

section

/-- The names in the order in which the files are read. -/
def turn (i : Nat) : Str :=
  [lit "P.pun", lit "1.pun", lit "2.pun", lit "P.log", lit "1.log", lit "2.log"].getD i []

/-- When its turn comes the `i`-th file is there; every other file has been removed. -/
def lonely (i : Nat) : Moment := ⟨fun name => name == turn i, fun name => if name = turn i then filesS name else none⟩

/-- C127 on a run with numbers, in which every file is there only while it is read. -/
example (D : Type) [Args.Dbl D] : ∃ par, Ends (fun fuel => calcJWhile D (id : Rat → Rat) (fun name => (filesS name).isSome) lonely fuel
      [(lit "-p_P"), (lit "P.pun"), (lit "-p_1"), (lit "1.pun"), (lit "-p_2"), (lit "2.pun")])
    (.ok (par, Machine.jobReport false (coefOf orbs1 1) (coefOf orbs2 1) ([2] : List Int).sum (energies energiesP).length ([2] ++ [2] : List Int).sum
      alignedC alignedS energiesP)) := by
  have key : ∀ fuel, calcJWhile D (id : Rat → Rat) (fun name => (filesS name).isSome) lonely fuel
        [(lit "-p_P"), (lit "P.pun"), (lit "-p_1"), (lit "1.pun"), (lit "-p_2"), (lit "2.pun")] =
      calcJRun D (id : Rat → Rat) filesS fuel [(lit "-p_P"), (lit "P.pun"), (lit "-p_1"), (lit "1.pun"), (lit "-p_2"), (lit "2.pun")] := by
    intro fuel
    rw [← C127_still (id : Rat → Rat) filesS (fun _ => ⟨fun name => (filesS name).isSome, filesS⟩) (fun _ => ⟨rfl, rfl⟩)]
    refine C127_matters (id : Rat → Rat) _ _ _ _ (fun q par hq hpar => ?_) fuel
    obtain ⟨q', par', hq', hpar', -, -, -, hf⟩ := params_of (D := D) intelligibleA meantA (n1 := 0) (n2 := 0) rfl rfl
      ⟨fun _ => by omega, fun _ => by omega⟩ ⟨fun _ => by omega, fun _ => by omega⟩
    have eq : q = q' := Res.ok.inj (hq.symm.trans hq')
    have epar : par = par' := Res.ok.inj (hpar.symm.trans (eq ▸ hpar'))
    rw [← epar] at hf
    have f1 : par.punP = lit "P.pun" := hf (lit "--pun_P", lit "--log_P", [lit ".orb", lit ".7", lit ".pun"]) (by decide)
    have f2 : par.pun1 = lit "1.pun" := hf (lit "--pun_1", lit "--log_1", [lit ".orb", lit ".7", lit ".pun"]) (by decide)
    have f3 : par.pun2 = lit "2.pun" := hf (lit "--pun_2", lit "--log_2", [lit ".orb", lit ".7", lit ".pun"]) (by decide)
    have f4 : par.logP = lit "P.log" := hf (lit "--log_P", lit "--pun_P", [lit ".log"]) (by decide)
    have f5 : par.log1 = lit "1.log" := hf (lit "--log_1", lit "--pun_1", [lit ".log"]) (by decide)
    have f6 : par.log2 = lit "2.log" := hf (lit "--log_2", lit "--pun_2", [lit ".log"]) (by decide)
    rw [f1, f2, f3, f4, f5, f6]
    decide +kernel
  obtain ⟨par, h⟩ := C103_numbers D (id : Rat → Rat) filesS intelligibleA meantA rfl (spinP := .alpha) (spin1 := .alpha) (spin2 := .alpha) rfl rfl rfl
    monomer1 monomer2 dimerP (by decide) (by decide) rfl rfl (by simp) (by simp) (n1 := 0) (n2 := 0) (row1 := 1) (row2 := 1) rfl rfl
    (.inl (by decide)) (.inl (by decide)) (by decide) (by decide)
  exact ⟨par, h.1, h.2.choose, fun fuel hfuel => (key fuel).trans (h.2.choose_spec fuel hfuel)⟩

/-- As `files`, but the dimer's log file is not readable. -/
def locked (_ : Nat) : Moment := ⟨fun name => (files name).isSome, fun name => if name = lit "P.log" then none else files name⟩

theorem locked_seems (i : Nat) (name : Str) (h : name ≠ lit "P.log") : seems (locked i) name = files name := by
  unfold seems locked
  dsimp only
  rw [if_neg h]
  have : ∀ o : Option Str, (if o.isSome = true then some (o.getD []) else none) = o := by intro o; cases o <;> rfl
  exact this _

/-- C127 (a log file that cannot be opened) with the files of the example for C79. -/
example (D : Type) [Args.Dbl D] : Ends (fun fuel => (calcJWhile D (id : Rat → Rat) (fsOf files) locked fuel
      [(lit "-p_P"), (lit "P.pun"), (lit "-p_1"), (lit "1.pun"), (lit "-p_2"), (lit "2.pun")] : Res (Params.Params × Report Rat))) .ub := by
  obtain ⟨q, hq, hpar⟩ := sample_parse (D := D)
  have rp : ∀ i name, name ≠ lit "P.log" → (fun fuel => (readPunAt (locked i) fuel name : Res (PunData Rat))) = fun fuel => readPun files fuel name := by
    intro i name h
    funext fuel
    rw [readPunAt_seems]
    unfold readPun Readers.read
    rw [locked_seems i name h]
  have rl : ∀ i name, name ≠ lit "P.log" → (fun fuel => (readLogAt (locked i) fuel name : Res (LogData Rat))) = fun fuel => readLog files fuel name := by
    intro i name h
    funext fuel
    rw [readLogAt_seems]
    unfold readLog Readers.read
    rw [locked_seems i name h]
  obtain ⟨dP, hP, -⟩ := stored_pun storedP
  obtain ⟨d1, h1, -⟩ := stored_pun stored1
  obtain ⟨d2, h2, -⟩ := stored_pun stored2
  obtain ⟨l1, g1, -⟩ := stored_log stored1
  obtain ⟨l2, g2, -⟩ := stored_log stored2
  refine C127_unopened (id : Rat → Rat) _ locked _ hq hpar (by decide +kernel) rfl storedP.logPlain storedP.logFit (prP := dP) (pr1 := d1) (pr2 := d2)
    (lr1 := l1) (lr2 := l2) ?_ ?_ ?_ ?_ ?_
  · rw [rp _ _ (by decide)]; exact hP
  · rw [rp _ _ (by decide)]; exact h1
  · rw [rp _ _ (by decide)]; exact h2
  · rw [rl _ _ (by decide)]; exact g1
  · rw [rl _ _ (by decide)]; exact g2

end
end Verif.Run
