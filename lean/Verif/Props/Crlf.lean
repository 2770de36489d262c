import Verif.CrlfPun
import Verif.CrlfLog
import Verif.Props.Run
/-
C141: files with the line ends of another system.
-/
namespace Verif.Crlf
open Readers Log Strings QC

theorem crlf_len (t : Str) : t.length ≤ (crlf t).length := by
  induction t with
  | nil => exact Nat.le_refl _
  | cons c t ih => rw [crlf_cons]; split <;> simp <;> omega

theorem fits_crlf {t : Str} (h : Fits (crlf t)) : Fits t := by
  unfold Fits at *
  have := crlf_len t
  omega

theorem changed_self {files : Str → Option Str} {name text : Str} (h : files name = some text) : changed files name name = some (crlf text) := by
  unfold changed
  rw [if_pos rfl, h]
  rfl

theorem ends_not_hangs {β : Type} {f : Nat → Res β} {out : Res β} (h : Ends f out) : ¬ Hangs f := by
  obtain ⟨h0, N, hN⟩ := h
  intro hh
  exact h0 ((hN N (Nat.le_refl _)).symm.trans (hh N))

/-- Two readings that come out the same. -/
theorem comes_both {γ δ : Type} {R : γ → δ → Prop} {f f' : Nat → Res γ} {r : Res δ} (h : Run.Comes R f r) (h' : Run.Comes R f' r) :
    (∀ D, Ends f (.ok D) → ∃ D', Ends f' (.ok D') ∧ ∃ d, R D d ∧ R D' d) ∧ (∀ e, Ends f (.throw e) → Ends f' (.throw e)) ∧
      (∀ c, Ends f (.exit c) → Ends f' (.exit c)) ∧ (Hangs f → Hangs f') := by
  cases r with
  | ok d =>
    obtain ⟨D, e, hR⟩ := h
    obtain ⟨D', e', hR'⟩ := h'
    refine ⟨fun D0 e0 => ?_, fun x e0 => ?_, fun x e0 => ?_, fun hh => absurd hh (ends_not_hangs e)⟩
    · cases e0.unique e
      exact ⟨D', e', d, hR, hR'⟩
    · cases e0.unique e
    · cases e0.unique e
  | throw x =>
    refine ⟨fun D0 e0 => ?_, fun x e0 => ?_, fun x e0 => ?_, fun hh => absurd hh (ends_not_hangs h)⟩
    · cases e0.unique h
    · cases e0.unique h; exact h'
    · cases e0.unique h
  | exit x =>
    refine ⟨fun D0 e0 => ?_, fun x e0 => ?_, fun x e0 => ?_, fun hh => absurd hh (ends_not_hangs h)⟩
    · cases e0.unique h
    · cases e0.unique h
    · cases e0.unique h; exact h'
  | ub =>
    refine ⟨fun D0 e0 => ?_, fun x e0 => ?_, fun x e0 => ?_, fun hh => absurd hh (ends_not_hangs h)⟩ <;> cases e0.unique h
  | diverge =>
    exact ⟨fun D0 e0 => absurd h (ends_not_hangs e0), fun x e0 => absurd h (ends_not_hangs e0), fun x e0 => absurd h (ends_not_hangs e0), fun _ => h'⟩

section
variable {α : Type} [Zero α] [Mul α] [Num α]

omit [Zero α] [Mul α] [Num α] in
theorem same_pun {D D' : PunData α} {d : Pun.Known α} (h : Matches D d) (h' : Matches D' d) : SamePun D D' where
  coefs spin := by
    unfold PunData.getCoefsMatrix
    cases hd : d spin with
    | none => rw [(h.1 spin).1 hd, (h'.1 spin).1 hd]
    | some rows =>
      obtain ⟨m, e1, e2⟩ := (h.1 spin).2 rows hd
      obtain ⟨m', e1', e2'⟩ := (h'.1 spin).2 rows hd
      rw [e2] at e2'
      cases e2'
      rw [e1, e1']
  shell := by
    have e := h'.2.trans h.2.symm
    have : D'.length = D.length := by
      have := congrArg List.length e
      simpa [punKeys] using this
    unfold PunData.restrictedShell
    rw [this]

/-- **C141 (punch files).** If no line lacks exactly one character to consist of fields of 15, then the line ends do not matter: reading gives
the same coefficients, throws the same exception, or never ends. -/
theorem C141_pun (files : Str → Option Str) (name text : Str) (hfit : Fits name) (h : files name = some text) (ht : Fits (crlf text)) (hs : NoneShort text) :
    (∀ D, Ends (fun n => (readPun files n name : Res (PunData α))) (.ok D) →
      ∃ D', Ends (fun n => (readPun (changed files name) n name : Res (PunData α))) (.ok D') ∧ SamePun D D') ∧
    (∀ e, Ends (fun n => (readPun files n name : Res (PunData α))) (.throw e) →
      Ends (fun n => (readPun (changed files name) n name : Res (PunData α))) (.throw e)) ∧
    (Hangs (fun n => (readPun files n name : Res (PunData α))) → Hangs (fun n => (readPun (changed files name) n name : Res (PunData α)))) := by
  have ht1 : ∀ text', files name = some text' → Fits text' := fun t e => by rw [h] at e; cases e; exact fits_crlf ht
  have h' := changed_self h
  have ht2 : ∀ text', changed files name name = some text' → Fits text' := fun t e => by rw [h'] at e; cases e; exact ht
  obtain ⟨r, hr⟩ := (Run.C122_reading (α := α) files name).1
  have c1 := Run.pun_comes hfit ht1 hr
  have hr' : Run.PunFile (changed files name) name r := by
    cases hr with
    | name hp => exact .name hp
    | missing hp hf => rw [h] at hf; cases hf
    | read hp hf hs' => rw [h] at hf; cases hf; exact .read hp h' (pun_says hs hs')
    | fails hp hf hs' => rw [h] at hf; cases hf; exact .fails hp h' (pun_fails hs hs')
    | endless hp hf hs' => rw [h] at hf; cases hf; exact .endless hp h' (pun_endless hs hs')
  have c2 := Run.pun_comes hfit ht2 hr'
  obtain ⟨a, b, -, c⟩ := comes_both c1 c2
  refine ⟨fun D hD => ?_, b, c⟩
  obtain ⟨D', e, d, m1, m2⟩ := a D hD
  exact ⟨D', e, same_pun m1 m2⟩

/-! ### log files -/

theorem same_log {D D' : LogData α} {d : LogLines.Known α} (h : LogLines.Holds D d) (h' : LogLines.Holds D' d) (hS : d.overlap = none)
    (hc : D'.getBasisFuncCount = D.getBasisFuncCount) : SameLog D D' where
  coords := h'.gives.coords.trans h.gives.coords.symm
  energies spin := (h'.gives.energies spin).trans (h.gives.energies spin).symm
  homo spin := (h'.gives.homo spin).trans (h.gives.homo spin).symm
  overlap := by
    have e := h.gives.overlap
    have e' := h'.gives.overlap
    rw [hS] at e e'
    exact e'.trans e.symm
  functions := hc

theorem neither_overlap {t : Str} (ht : NeitherTable t) {i : Nat} {d d' : LogLines.Known α} (h : LogLines.Says t i d d') : d'.overlap = d.overlap := by
  induction h with
  | done => rfl
  | skip _ _ _ ih => exact ih
  | @table i k f e d d' h1 h2 h3 _ ih =>
    cases h3 with
    | coords => exact ih
    | energies => exact ih
    | overlap => exact absurd h2 (ht.overlap i)
    | population => exact absurd h2 (ht.population i)

theorem counts_nil {counts : List Int} (h : LogLines.Counts [] counts) : counts = [] := by
  obtain ⟨table, -, h2, h3, rfl⟩ := h
  cases table with
  | nil => rfl
  | cons x xs =>
    exfalso
    obtain ⟨h, -⟩ := h2 x (by simp)
    obtain ⟨l, hl⟩ := List.exists_mem_of_ne_nil _ h
    exact absurd ((h3 x.1 l).2 ⟨x.2, by simp, hl⟩) (by simp)

theorem counts_none {fs : List ((Nat × Str) × Str)} {counts : List Int} (h : LogLines.Counts fs counts) (hc : counts = []) : fs = [] := by
  obtain ⟨table, -, -, h3, rfl⟩ := h
  rw [List.map_eq_nil_iff] at hc
  subst hc
  cases fs with
  | nil => rfl
  | cons x xs =>
    obtain ⟨ls, h, -⟩ := (h3 x.1 x.2).1 (by simp)
    cases h

/-- **C141 (log files without overlaps and populations).** The line ends do not matter: the same positions, energies and numbers of occupied
orbitals, the same failure, or no end. -/
theorem C141_log_same (files : Str → Option Str) (name text : Str) (hfit : Fits name) (h : files name = some text) (ht : Fits (crlf text)) (hs : NeitherTable text) :
    (∀ D, Ends (fun n => (readLog files n name : Res (LogData α))) (.ok D) →
      ∃ D', Ends (fun n => (readLog (changed files name) n name : Res (LogData α))) (.ok D') ∧ SameLog D D') ∧
    (∀ e, Ends (fun n => (readLog files n name : Res (LogData α))) (.throw e) →
      Ends (fun n => (readLog (changed files name) n name : Res (LogData α))) (.throw e)) ∧
    (∀ c, Ends (fun n => (readLog files n name : Res (LogData α))) (.exit c) →
      Ends (fun n => (readLog (changed files name) n name : Res (LogData α))) (.exit c)) ∧
    (Hangs (fun n => (readLog files n name : Res (LogData α))) → Hangs (fun n => (readLog (changed files name) n name : Res (LogData α)))) := by
  have ht1 : ∀ text', files name = some text' → Fits text' := fun t e => by rw [h] at e; cases e; exact fits_crlf ht
  have h' := changed_self h
  have ht2 : ∀ text', changed files name name = some text' → Fits text' := fun t e => by rw [h'] at e; cases e; exact ht
  obtain ⟨r, hr⟩ := (Run.C122_reading (α := α) files name).2
  have c1 := Run.log_comes hfit ht1 hr
  have hn : ∀ d c, r = .ok (d, c) → d.overlap = none := by
    intro d c e
    cases hr with
    | read hp hf hs' hc => cases e; rw [h] at hf; cases hf; exact neither_overlap hs hs'
    | @fails _ x => cases x <;> cases e
    | name => cases e
    | missing => cases e
    | endless => cases e
  have hr' : Run.LogFile (changed files name) name r := by
    cases hr with
    | name hp => exact .name hp
    | missing hp hf => rw [h] at hf; cases hf
    | read hp hf hs' hc => rw [h] at hf; cases hf; exact .read hp h' (log_says hs hs') hc
    | fails hp hf hs' => rw [h] at hf; cases hf; exact .fails hp h' (log_fails hs hs')
    | endless hp hf hs' => rw [h] at hf; cases hf; exact .endless hp h' (log_endless hs hs')
  have c2 := Run.log_comes hfit ht2 hr'
  obtain ⟨a, b, b', c⟩ := comes_both c1 c2
  refine ⟨fun D hD => ?_, b, b', c⟩
  cases r with
  | ok d =>
    obtain ⟨D0, e0, m1, f1⟩ := c1
    obtain ⟨D', e, m2, f2⟩ := c2
    cases hD.unique e0
    exact ⟨D', e, same_log m1 m2 (hn d.1 d.2 rfl) (f2.trans f1.symm)⟩
  | throw x => cases hD.unique c1
  | exit x => cases hD.unique c1
  | ub => cases hD.unique c1
  | diverge => exact absurd c1 (ends_not_hangs hD)

theorem log_file (files : Str → Option Str) (name text : Str) (hfit : Fits name) (h : files name = some text) (ht : Fits text) {D : LogData α}
    (hD : Ends (fun n => (readLog files n name : Res (LogData α))) (.ok D)) : PlainName (lit ".log") name ∧
      ∃ d, LogLines.Says text 0 LogLines.nothing d ∧ LogLines.Holds D d := by
  obtain ⟨r, hr⟩ := (Run.C122_reading (α := α) files name).2
  have c1 := Run.log_comes hfit (fun t e => by rw [h] at e; cases e; exact ht) hr
  cases hr with
  | name => cases hD.unique c1
  | missing => cases hD.unique c1
  | read hp hf hs' hc =>
    obtain ⟨D0, e0, m1, f1⟩ := c1
    cases hD.unique e0
    rw [h] at hf; cases hf
    exact ⟨hp, _, hs', m1⟩
  | @fails _ x => cases x <;> cases hD.unique c1
  | endless => exact absurd c1 (ends_not_hangs hD)

/-- **C141 (nothing is found).** A log file with line ends of two characters gives neither an overlap matrix nor basis functions, whatever
tables it has. -/
theorem C141_log_never (files : Str → Option Str) (name text : Str) (hfit : Fits name) (h : files name = some text) (ht : Fits (crlf text))
    (hs : Ordinary text) {D : LogData α} (hD : Ends (fun n => (readLog (changed files name) n name : Res (LogData α))) (.ok D)) :
    D.getOverlapMatrix = .ub ∧ D.getBasisFuncCount = [] := by
  obtain ⟨-, d, h1, h2⟩ := log_file _ name _ hfit (changed_self h) ht hD
  obtain ⟨e1, e2⟩ := log_never hs h1
  have g1 := h2.gives.overlap
  have g2 := h2.gives.functions
  rw [show d.overlap = none from e1] at g1
  rw [show d.functions = [] from e2] at g2
  exact ⟨g1, counts_nil g2⟩

/-- **C141 (refused).** If the log file has them, and can be read with line ends of one character, then it is refused with line ends of two
characters; if it has neither, the same is read. -/
theorem C141_log_refused (files : Str → Option Str) (name text : Str) (hfit : Fits name) (h : files name = some text) (ht : Fits (crlf text))
    (hs : Ordinary text) {D : LogData α} (hD : Ends (fun n => (readLog files n name : Res (LogData α))) (.ok D)) :
    (D.getOverlapMatrix ≠ .ub ∨ D.getBasisFuncCount ≠ [] →
      Ends (fun n => (readLog (changed files name) n name : Res (LogData α))) (.throw .invalidArgument)) ∧
    (D.getOverlapMatrix = .ub → D.getBasisFuncCount = [] →
      ∃ D', Ends (fun n => (readLog (changed files name) n name : Res (LogData α))) (.ok D') ∧ SameLog D D') := by
  obtain ⟨hp, d, h1, h2⟩ := log_file _ name _ hfit h (fits_crlf ht) hD
  have g1 := h2.gives.overlap
  have g2 := h2.gives.functions
  have bad : LogLines.Fails α (crlf text) 0 (.throws .invalidArgument) →
      Ends (fun n => (readLog (changed files name) n name : Res (LogData α))) (.throw .invalidArgument) :=
    fun hf => LogLines.C120_fails _ name _ hfit hp (changed_self h) ht _ hf
  rcases log_refused hs h1 with ⟨e1, e2, e3⟩ | ⟨hk, hf⟩
  · rw [show d.overlap = none from e1] at g1
    rw [show d.functions = [] from e2] at g2
    refine ⟨?_, fun _ _ => ?_⟩
    · rintro (x | x)
      · exact absurd g1 x
      · exact absurd (counts_nil g2) x
    · obtain ⟨D', hD', hH⟩ : ∃ D', Ends (fun n => (readLog (changed files name) n name : Res (LogData α))) (.ok D') ∧ LogLines.Holds D' d := by
        obtain ⟨N, D', hH, hE⟩ := LogLines.goOn_says (allFit_of ht) e3 ⟨openText _, some _, LogData.empty⟩ [] (LogLines.here_start _) LogLines.holds_start
        refine ⟨D', ?_, hH⟩
        rw [readLog_eq _ name _ hfit hp (changed_self h), LogLines.runFrom_goOn]
        exact ⟨by simp, N, hE⟩
      have g2' := hH.gives.functions
      rw [show d.functions = [] from e2] at g2'
      exact ⟨D', hD', same_log h2 hH e1 ((counts_nil g2').trans (counts_nil g2).symm)⟩
  · refine ⟨fun _ => bad hf, fun x y => ?_⟩
    exfalso
    rcases hk with hk | hk
    · cases ho : d.overlap with
      | none => exact hk ho
      | some v =>
        rw [ho] at g1
        obtain ⟨m, e, -⟩ := g1
        rw [e] at x
        cases x
    · exact hk (counts_none g2 y)

end
end Verif.Crlf
