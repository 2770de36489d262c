import Verif.Props.EveryLine
import Verif.Spec.SameContents
import Verif.ChatterOnce
/-
C155: the names of the files do not matter.
-/
namespace Verif.SameContents
open Readers QC Log Args Run Params Strings

section
variable {α : Type} [Zero α] [Mul α] [Num α]

/-- Only one thing comes of reading a file of coefficients. -/
theorem pun_once {files : Str → Option Str} {name : Str} (hfit : ∀ text, files name = some text → Fits text) {r r' : Res (Pun.Known α)}
    (h : PunFile files name r) (h' : PunFile files name r') : r = r' := by
  cases h with
  | name h1 => cases h' with
    | name _ => rfl
    | missing _ _ => rfl
    | read h2 _ _ => exact absurd h2 h1
    | fails h2 _ _ => exact absurd h2 h1
    | endless h2 _ _ => exact absurd h2 h1
  | missing h1 h2 => cases h' with
    | name _ => rfl
    | missing _ _ => rfl
    | read _ h3 _ => exact absurd (h2.symm.trans h3) (by simp)
    | fails _ h3 _ => exact absurd (h2.symm.trans h3) (by simp)
    | endless _ h3 _ => exact absurd (h2.symm.trans h3) (by simp)
  | read h1 h2 h3 =>
    obtain ⟨o1, o2, o3, o4⟩ := C119_one (α := α) _ (hfit _ h2)
    cases h' with
    | name h4 => exact absurd h1 h4
    | missing _ h4 => exact absurd (h2.symm.trans h4) (by simp)
    | read _ h4 h5 => cases h2.symm.trans h4; rw [Chatter.says_once h3 h5]
    | fails _ h4 h5 => cases h2.symm.trans h4; exact absurd h5 (o1 _ _ h3)
    | endless _ h4 h5 => cases h2.symm.trans h4; exact absurd h5 (o2 _ h3)
  | fails h1 h2 h3 =>
    obtain ⟨o1, o2, o3, o4⟩ := C119_one (α := α) _ (hfit _ h2)
    cases h' with
    | name h4 => exact absurd h1 h4
    | missing _ h4 => exact absurd (h2.symm.trans h4) (by simp)
    | read _ h4 h5 => cases h2.symm.trans h4; exact absurd h3 (o1 _ _ h5)
    | fails _ h4 h5 => cases h2.symm.trans h4; rw [o4 _ _ h3 h5]
    | endless _ h4 h5 => cases h2.symm.trans h4; exact absurd h5 (o3 _ h3)
  | endless h1 h2 h3 =>
    obtain ⟨o1, o2, o3, o4⟩ := C119_one (α := α) _ (hfit _ h2)
    cases h' with
    | name h4 => exact absurd h1 h4
    | missing _ h4 => exact absurd (h2.symm.trans h4) (by simp)
    | read _ h4 h5 => cases h2.symm.trans h4; exact absurd h3 (o2 _ h5)
    | fails _ h4 h5 => cases h2.symm.trans h4; exact absurd h3 (o3 _ h5)
    | endless _ _ _ => rfl

/-- Only one thing comes of reading a log file. -/
theorem log_once {files : Str → Option Str} {name : Str} (hfit : ∀ text, files name = some text → Fits text) {r r' : Res (LogLines.Known α × List Int)}
    (h : LogFile files name r) (h' : LogFile files name r') : r = r' := by
  cases h with
  | name h1 => cases h' with
    | name _ => rfl
    | missing _ _ => rfl
    | read h2 _ _ _ => exact absurd h2 h1
    | fails h2 _ _ => exact absurd h2 h1
    | endless h2 _ _ => exact absurd h2 h1
  | missing h1 h2 => cases h' with
    | name _ => rfl
    | missing _ _ => rfl
    | read _ h3 _ _ => exact absurd (h2.symm.trans h3) (by simp)
    | fails _ h3 _ => exact absurd (h2.symm.trans h3) (by simp)
    | endless _ h3 _ => exact absurd (h2.symm.trans h3) (by simp)
  | read h1 h2 h3 hc =>
    obtain ⟨o1, o2, o3, o4⟩ := LogLines.C120_one (α := α) _ (hfit _ h2)
    cases h' with
    | name h4 => exact absurd h1 h4
    | missing _ h4 => exact absurd (h2.symm.trans h4) (by simp)
    | read _ h4 h5 hd => cases h2.symm.trans h4; cases Chatter.log_says_once h3 h5; rw [counts_unique hc hd]
    | fails _ h4 h5 => cases h2.symm.trans h4; exact absurd h5 (o1 _ _ h3)
    | endless _ h4 h5 => cases h2.symm.trans h4; exact absurd h5 (o2 _ h3)
  | fails h1 h2 h3 =>
    obtain ⟨o1, o2, o3, o4⟩ := LogLines.C120_one (α := α) _ (hfit _ h2)
    cases h' with
    | name h4 => exact absurd h1 h4
    | missing _ h4 => exact absurd (h2.symm.trans h4) (by simp)
    | read _ h4 h5 _ => cases h2.symm.trans h4; exact absurd h3 (o1 _ _ h5)
    | fails _ h4 h5 => cases h2.symm.trans h4; rw [o4 _ _ h3 h5]
    | endless _ h4 h5 => cases h2.symm.trans h4; exact absurd h5 (o3 _ h3)
  | endless h1 h2 h3 =>
    obtain ⟨o1, o2, o3, o4⟩ := LogLines.C120_one (α := α) _ (hfit _ h2)
    cases h' with
    | name h4 => exact absurd h1 h4
    | missing _ h4 => exact absurd (h2.symm.trans h4) (by simp)
    | read _ h4 h5 _ => cases h2.symm.trans h4; exact absurd h3 (o2 _ h5)
    | fails _ h4 h5 => cases h2.symm.trans h4; exact absurd h3 (o3 _ h5)
    | endless _ _ _ => rfl

/-- The same contents, the same comes of reading. -/
theorem pun_same {files files' : Str → Option Str} {name name' : Str} (h : SameFile files files' (lit ".pun") name name') {r : Res (Pun.Known α)}
    (hr : PunFile files name r) : PunFile files' name' r := by
  cases hr with
  | name h1 => exact .name (fun h2 => h1 (h.name.1 h2))
  | missing h1 h2 => exact .missing (h.name.2 h1) (h.contents.trans h2)
  | read h1 h2 h3 => exact .read (h.name.2 h1) (h.contents.trans h2) h3
  | fails h1 h2 h3 => exact .fails (h.name.2 h1) (h.contents.trans h2) h3
  | endless h1 h2 h3 => exact .endless (h.name.2 h1) (h.contents.trans h2) h3

theorem log_same {files files' : Str → Option Str} {name name' : Str} (h : SameFile files files' (lit ".log") name name')
    {r : Res (LogLines.Known α × List Int)} (hr : LogFile files name r) : LogFile files' name' r := by
  cases hr with
  | name h1 => exact .name (fun h2 => h1 (h.name.1 h2))
  | missing h1 h2 => exact .missing (h.name.2 h1) (h.contents.trans h2)
  | read h1 h2 h3 h4 => exact .read (h.name.2 h1) (h.contents.trans h2) h3 h4
  | fails h1 h2 h3 => exact .fails (h.name.2 h1) (h.contents.trans h2) h3
  | endless h1 h2 h3 => exact .endless (h.name.2 h1) (h.contents.trans h2) h3

end

theorem name_inj {a b : Log.Spin} (h : a.name = b.name) : a = b := by
  cases a <;> cases b <;> first | rfl | exact absurd h (by decide)

section
variable {α β : Type} [Zero α] [One α] [Add α] [Sub α] [Mul α] [Div α] [Num α] [DecidableEq β] {D : Type} [Args.Dbl D]

/-- The numbers, once the files are read. -/
noncomputable def numbers (tos : α → β) (par : Params) (spinP spin1 spin2 : Log.Spin) (punP pun1 pun2 : Res (Pun.Known α))
    (logP log1 log2 : Res (LogLines.Known α × List Int)) : Res (Report α) := do
  let punP ← punP
  let pun1 ← pun1
  let pun2 ← pun2
  let logP ← logP
  let log1 ← log1
  let log2 ← log2
  outcome tos par.counterPoise par.orbType1 par.orbNum1 par.orbType2 par.orbNum2 logP.1.overlap (found spinP punP logP)
    (found spin1 pun1 log1) (found spin2 pun2 log2)

theorem calcJ_numbers (tos : α → β) (par : Params) (spinP spin1 spin2 : Log.Spin) (punP pun1 pun2 : Res (Pun.Known α))
    (logP log1 log2 : Res (LogLines.Known α × List Int)) :
    Run.calcJ tos par spinP spin1 spin2 punP pun1 pun2 logP log1 log2 = withParams par (numbers tos par spinP spin1 spin2 punP pun1 pun2 logP log1 log2) := by
  unfold Run.calcJ withParams numbers
  simp only [bind_assoc]

/-- What calc_J does when it is understood. -/
theorem wants_does (tos : α → β) {files : Str → Option Str} (hfit : ∀ name text, files name = some text → Fits text)
    {args : List Str} (hargs : ∀ v ∈ args, v.length + 4 < 2 ^ 63) {par : Params} (h : Wants files args par) :
    ∃ (spinP spin1 spin2 : Log.Spin) (punP pun1 pun2 : Res (Pun.Known α)) (logP log1 log2 : Res (LogLines.Known α × List Int)),
      par.spinP = spinP.name ∧ par.spin1 = spin1.name ∧ par.spin2 = spin2.name ∧
      PunFile files par.punP punP ∧ PunFile files par.pun1 pun1 ∧ PunFile files par.pun2 pun2 ∧
      LogFile files par.logP logP ∧ LogFile files par.log1 log1 ∧ LogFile files par.log2 log2 ∧
      Does (fun fuel => calcJRun D tos files fuel args) (withParams par (numbers tos par spinP spin1 spin2 punP pun1 pun2 logP log1 log2)) := by
  obtain ⟨as, r, n1, n2, hu, ht, a1, a2, hpar⟩ := h
  obtain ⟨sP, eP⟩ := understood_spin hu (lit "--spin_P") (by decide)
  obtain ⟨s1, e1⟩ := understood_spin hu (lit "--spin_1") (by decide)
  obtain ⟨s2, e2⟩ := understood_spin hu (lit "--spin_2") (by decide)
  have hp := fun name => (C122_reading (α := α) files name).1.choose_spec
  have hl := fun name => (C122_reading (α := α) files name).2.choose_spec
  obtain ⟨-, -, -, -, -, -, t1, t2, t3⟩ := parameters_ok hpar
  refine ⟨sP, s1, s2, _, _, _, _, _, _, t1.trans eP, t2.trans e1, t3.trans e2, hp _, hp _, hp _, hl _, hl _, hl _, ?_⟩
  have h := understood_does (D := D) tos hfit hp hl hargs hu ht a1 a2 eP e1 e2
  rw [hpar, Res.ok_bind, calcJ_numbers] at h
  exact h

/-- **C155.** Two runs on files of the same contents that are asked for the same orbitals come out the same, whatever the names. -/
theorem C155_same (tos : α → β) (files files' : Str → Option Str) (hfit : ∀ name text, files name = some text → Fits text)
    (hfit' : ∀ name text, files' name = some text → Fits text) {args args' : List Str} (hargs : ∀ v ∈ args, v.length + 4 < 2 ^ 63)
    (hargs' : ∀ v ∈ args', v.length + 4 < 2 ^ 63) {par par' : Params} (h : Wants files args par) (h' : Wants files' args' par')
    (hs : SameJob files files' par par') :
    ∃ out : Res (Report α), Does (fun fuel => calcJRun D tos files fuel args) (withParams par out) ∧
      Does (fun fuel => calcJRun D tos files' fuel args') (withParams par' out) := by
  obtain ⟨sP, s1, s2, pP, p1, p2, lP, l1, l2, eP, e1, e2, r1, r2, r3, r4, r5, r6, hd⟩ := wants_does (D := D) tos hfit hargs h
  obtain ⟨sP', s1', s2', pP', p1', p2', lP', l1', l2', eP', e1', e2', r1', r2', r3', r4', r5', r6', hd'⟩ := wants_does (D := D) tos hfit' hargs' h'
  obtain rfl := name_inj (eP.symm.trans (hs.spins.1.symm.trans eP'))
  obtain rfl := name_inj (e1.symm.trans (hs.spins.2.1.symm.trans e1'))
  obtain rfl := name_inj (e2.symm.trans (hs.spins.2.2.symm.trans e2'))
  obtain rfl := pun_once (hfit' _) (pun_same hs.punP r1) r1'
  obtain rfl := pun_once (hfit' _) (pun_same hs.pun1 r2) r2'
  obtain rfl := pun_once (hfit' _) (pun_same hs.pun2 r3) r3'
  obtain rfl := log_once (hfit' _) (log_same hs.logP r4) r4'
  obtain rfl := log_once (hfit' _) (log_same hs.log1 r5) r5'
  obtain rfl := log_once (hfit' _) (log_same hs.log2 r6) r6'
  refine ⟨_, hd, ?_⟩
  have e : numbers tos par' sP s1 s2 pP p1 p2 lP l1 l2 = numbers tos par sP s1 s2 pP p1 p2 lP l1 l2 := by
    unfold numbers
    rw [hs.counterPoise, hs.types.1, hs.types.2, hs.numbers.1, hs.numbers.2]
  rw [e] at hd'
  exact hd'

/-- **C155 (outcomes).** So the one prints a report just when the other prints the same one, they end with the same exception or exit status,
or neither ends. -/
theorem C155_outcomes (tos : α → β) (files files' : Str → Option Str) (hfit : ∀ name text, files name = some text → Fits text)
    (hfit' : ∀ name text, files' name = some text → Fits text) {args args' : List Str} (hargs : ∀ v ∈ args, v.length + 4 < 2 ^ 63)
    (hargs' : ∀ v ∈ args', v.length + 4 < 2 ^ 63) {par par' : Params} (h : Wants files args par) (h' : Wants files' args' par')
    (hs : SameJob files files' par par') :
    (∀ r : Report α, Ends (fun fuel => calcJRun D tos files fuel args) (.ok (par, r)) ↔ Ends (fun fuel => calcJRun D tos files' fuel args') (.ok (par', r))) ∧
    (∀ p (r : Report α), Ends (fun fuel => calcJRun D tos files fuel args) (.ok (p, r)) → p = par) ∧
    (∀ e, Ends (fun fuel => (calcJRun D tos files fuel args : Res (Params × Report α))) (.throw e) ↔
      Ends (fun fuel => (calcJRun D tos files' fuel args' : Res (Params × Report α))) (.throw e)) ∧
    (∀ c, Ends (fun fuel => (calcJRun D tos files fuel args : Res (Params × Report α))) (.exit c) ↔
      Ends (fun fuel => (calcJRun D tos files' fuel args' : Res (Params × Report α))) (.exit c)) ∧
    (Hangs (fun fuel => (calcJRun D tos files fuel args : Res (Params × Report α))) ↔
      Hangs (fun fuel => (calcJRun D tos files' fuel args' : Res (Params × Report α)))) := by
  obtain ⟨out, h1, h2⟩ := C155_same (D := D) tos files files' hfit hfit' hargs hargs' h h' hs
  have is : ∀ {γ : Type} {f : Nat → Res γ} {a b : Res γ}, Does f a → (Does f b ↔ b = a) := fun h => ⟨fun hb => Does.unique hb h, fun e => e ▸ h⟩
  have inj : ∀ {p q : Params} {r s : Report α}, (Res.ok (p, r) = Res.ok (q, s)) ↔ (p = q ∧ r = s) := by simp
  refine ⟨fun r => (is (b := .ok (par, r)) h1).trans (Iff.trans ?_ (is (b := .ok (par', r)) h2).symm), fun p r hr => ?_,
    fun e => (is (b := .throw e) h1).trans (Iff.trans ?_ (is (b := .throw e) h2).symm),
    fun c => (is (b := .exit c) h1).trans (Iff.trans ?_ (is (b := .exit c) h2).symm), (is (b := .diverge) h1).trans (Iff.trans ?_ (is (b := .diverge) h2).symm)⟩
  · cases out with
    | ok s => simp [withParams, inj]
    | _ => simp [withParams]
  · have e := (is (b := .ok (p, r)) h1).1 hr
    cases out with
    | ok s => exact (inj.1 (show Res.ok (p, r) = Res.ok (par, s) from e)).1
    | _ => cases e
  all_goals cases out <;> simp [withParams]

end
end Verif.SameContents
