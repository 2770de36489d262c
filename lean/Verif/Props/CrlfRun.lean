import Verif.Props.Crlf
import Verif.Props.Fuel
/-
C141: calc_J and the line ends of the log file of the pair.
-/
namespace Verif.Crlf
open Readers Log Strings QC

section
variable {α : Type} [Zero α] [Mul α] [Num α]

omit [Zero α] in
theorem readPun_congr {fs fs' : Str → Option Str} {name : Str} (h : fs' name = fs name) (n : Nat) :
    (readPun fs' n name : Res (PunData α)) = readPun fs n name := by
  simp only [readPun, Readers.read, h]

omit [Zero α] in
theorem readPun_name {fs : Str → Option Str} {name : Str} {n : Nat} {d : PunData α} (h : readPun fs n name = .ok d) :
    punReaderNew (α := α) name = .ok () := by
  obtain ⟨u, h, -⟩ := Res.bind_eq_ok.1 h
  cases u; exact h

theorem readLog_name {fs : Str → Option Str} {name : Str} {n : Nat} {d : LogData α} (h : readLog fs n name = .ok d) :
    logReaderNew (α := α) name = .ok () := by
  obtain ⟨u, h, -⟩ := Res.bind_eq_ok.1 h
  cases u; exact h

/-- A file cannot be read both ways. -/
theorem one_way {name : Str} (hfit : Fits name) (h1 : punReaderNew (α := α) name = .ok ()) (h2 : logReaderNew (α := α) name = .ok ()) : False := by
  have hn := C70_accepted_partial (α := α) name hfit
  obtain ⟨a1, -, -⟩ := fileExt_spec (lit ".log") _ rfl (by decide) (by decide) name hfit
  obtain ⟨b1, -, -⟩ := fileExt_spec (lit ".pun") _ rfl (by decide) (by decide) name hfit
  have e := (a1 (hn.1.1 h2)).symm.trans (b1 (hn.2.2.1.1 h1))
  exact absurd (Res.ok.inj e) (by decide)

end

section
variable {α β : Type} [Zero α] [One α] [Add α] [Sub α] [Mul α] [Div α] [Num α] [DecidableEq β] {D : Type} [Args.Dbl D]

omit [Zero α] [One α] [Add α] [Sub α] [Mul α] [Div α] [Num α] in
theorem fsOf_changed (files : Str → Option Str) (name : Str) : fsOf (changed files name) = fsOf files := by
  funext f
  unfold fsOf changed
  split <;> simp

/-- **C141 (calc_J).** Whatever calc_J computes, it does not when the log file of the pair has line ends of two characters: it ends with an
exception. -/
theorem C141_calc_J (tos : α → β) (files : Str → Option Str) (args : List Str) {par : Params.Params} {r : Report α}
    (h : Ends (fun fuel => calcJRun D tos files fuel args) (.ok (par, r))) (hfit : Fits par.logP) {text : Str} (hf : files par.logP = some text)
    (ht : Fits (crlf text)) (hs : Ordinary text) :
    Ends (fun fuel => calcJRun D tos (changed files par.logP) fuel args) (.throw .invalidArgument) := by
  obtain ⟨-, N, hN⟩ := h
  have split : ∀ n, N ≤ n → ∃ (q : Args.Parser D) (prP pr1 pr2 : PunData α) (lrP : LogData α), Args.parse (fsOf files) (Args.calcJ (D := D)) args = .ok q ∧ Args.prepareParameters q = .ok par ∧
      readPun files n par.punP = .ok prP ∧ readPun files n par.pun1 = .ok pr1 ∧ readPun files n par.pun2 = .ok pr2 ∧
      readLog files n par.logP = .ok lrP ∧ (lrP : LogData α).getOverlapMatrix ≠ .ub := by
    intro n hn
    have e := hN n hn
    unfold calcJRun at e
    rw [Args.prepareParser_ok] at e
    simp only [Res.ok_bind] at e
    obtain ⟨q, hq, e⟩ := Res.bind_eq_ok.1 e
    obtain ⟨par', hp, e⟩ := Res.bind_eq_ok.1 e
    obtain ⟨⟨⟨prP, pr1, pr2⟩, lrP, lr1, lr2⟩, hr, e⟩ := Res.bind_eq_ok.1 e
    obtain ⟨rep, hc, e⟩ := Res.bind_eq_ok.1 e
    cases e
    unfold readFiles at hr
    obtain ⟨a1, q1, hr⟩ := Res.bind_eq_ok.1 hr
    obtain ⟨a2, q2, hr⟩ := Res.bind_eq_ok.1 hr
    obtain ⟨a3, q3, hr⟩ := Res.bind_eq_ok.1 hr
    obtain ⟨a4, q4, hr⟩ := Res.bind_eq_ok.1 hr
    obtain ⟨a5, q5, hr⟩ := Res.bind_eq_ok.1 hr
    obtain ⟨a6, q6, hr⟩ := Res.bind_eq_ok.1 hr
    cases hr
    refine ⟨q, _, _, _, _, hq, hp, q1, q2, q3, q4, ?_⟩
    unfold couplingReport at hc
    obtain ⟨S, hS, -⟩ := Res.bind_eq_ok.1 hc
    rw [hS]; simp
  obtain ⟨q, prP, pr1, pr2, lrP, hq, hp, h1, h2, h3, h4, h5⟩ := split N (Nat.le_refl _)
  have hE : Ends (fun n => (readLog files n par.logP : Res (LogData α))) (.ok lrP) :=
    ⟨by simp, N, fun m hm => (readLog_mono files par.logP N m hm (by show (readLog files N par.logP : Res (LogData α)) ≠ _; rw [h4]; simp)).trans h4⟩
  obtain ⟨-, M, hM⟩ := (C141_log_refused files par.logP text hfit hf ht hs hE).1 (.inl h5)
  have other : ∀ {name : Str} {d : PunData α}, readPun files N name = .ok d → name ≠ par.logP := by
    rintro name d hd rfl
    exact one_way (α := α) hfit (readPun_name hd) (readLog_name h4)
  have same : ∀ {name : Str}, name ≠ par.logP → changed files par.logP name = files name := fun hn => if_neg hn
  refine ⟨by simp, max N M, fun n hn => ?_⟩
  obtain ⟨q', prP', pr1', pr2', lrP', hq', hp', h1', h2', h3', -, -⟩ := split n (by omega)
  show calcJRun D tos (changed files par.logP) n args = _
  unfold calcJRun
  rw [Args.prepareParser_ok, fsOf_changed]
  simp only [Res.ok_bind]
  rw [hq', Res.ok_bind, hp', Res.ok_bind]
  unfold readFiles
  rw [readPun_congr (same (other h1)), h1', Res.ok_bind, readPun_congr (same (other h2)), h2', Res.ok_bind, readPun_congr (same (other h3)), h3', Res.ok_bind,
    show (readLog (changed files par.logP) n par.logP : Res (LogData α)) = _ from hM n (by omega)]
  rfl

end
end Verif.Crlf
