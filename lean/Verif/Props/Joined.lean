import Verif.Spec.Joined
import Verif.Props.Chatter
import Verif.Props.SameContents
/-
C156: two calculations in one file.
-/
namespace Verif.Joined
open Readers Log Strings CutOff QC Chatter
open Pun (NoLine)

theorem lines_first (first : List Str) (h : ∀ l ∈ first, IsLine l) : textLines (unlines first) = first ++ [[]] := by
  have := lines_unlines first h []
  rwa [List.append_nil] at this

theorem begins {first : List Str} (h : ∀ l ∈ first, IsLine l) (t : Str) : Begins (unlines first) (unlines first ++ t) first.length where
  len := by rw [lines_first first h, List.length_append]; exact Nat.lt_succ_self _
  len' := by
    have := List.length_pos_iff.2 (textLines_ne t)
    rw [lines_unlines first h, List.length_append]
    omega
  before {j} hj := by
    have hf : (textLines (unlines first))[j]? = some first[j] := by
      rw [lines_first first h, List.getElem?_append_left hj, List.getElem?_eq_getElem hj]
    have hf' : (textLines (unlines first ++ t))[j]? = some first[j] := by
      rw [lines_unlines first h, List.getElem?_append_left hj, List.getElem?_eq_getElem hj]
    rw [lineAt_get hf, lineAt_get hf']

theorem after {first : List Str} (h : ∀ l ∈ first, IsLine l) (t : Str) : Moved t (unlines first ++ t) 0 first.length :=
  (C154_inserted [] first (fun _ h => absurd h (by simp)) h t).moved

theorem line_after {first : List Str} (h : ∀ l ∈ first, IsLine l) (t : Str) : lineAt (unlines first ++ t) first.length = lineAt t 0 := by
  have := (after h t).line (j := 0) (Nat.le_refl _)
  rwa [Nat.zero_add] at this

section
variable {α : Type} [Mul α] [Num α]

/-! ### the first file -/

theorem PunFirst.upto {first : List Str} {d1 : Pun.Known α} (h : PunFirst first d1) (t : Str) :
    Pun.Upto (unlines first ++ t) 0 (fun _ => none) first.length d1 :=
  keep_upto (begins h.lines t) (Nat.le_refl _) h.read

theorem LogFirst.upto {first : List Str} {t : Str} {d1 : LogLines.Known α} (h : LogFirst first t d1) :
    LogLines.Upto (unlines first ++ t) 0 LogLines.nothing first.length d1 :=
  log_keep_upto (m := first.length) ⟨begins h.lines t, fun spin _ => .inr (by rw [line_after h.lines t]; exact h.next spin)⟩ (Nat.le_refl _) h.read

/-! ### the second one, with the first one known -/

theorem says_after {t : Str} (d0 : Pun.Known α) {i : Nat} {d d' : Pun.Known α} (h : Pun.Says t i d d') : Pun.Says t i (punAfter d0 d) (punAfter d0 d') := by
  induction h with
  | done h1 => exact .done h1
  | skip h1 h2 _ ih => exact .skip h1 h2 ih
  | @table i d d' spin rows e h1 h2 h3 h4 _ ih =>
    refine .table h1 h2 h3 h4 ?_
    have e : (fun s => if s = spin then some rows else punAfter d0 d s) = punAfter d0 (fun s => if s = spin then some rows else d s) := by
      funext s
      by_cases hs : s = spin <;> simp [punAfter, hs]
    rw [e]
    exact ih

theorem table_after {t : Str} (d0 d : LogLines.Known α) {i : Nat} {k : LogLines.Kind} {f : LogLines.Known α → LogLines.Known α} {e : Nat}
    (h : LogLines.Table t i k f e) : f (logAfter d0 d) = logAfter d0 (f d) := by
  cases h with
  | coords => rfl
  | @energies spin k =>
    have e : ∀ x : List α × Nat, (fun s => if s = spin then some x else (d.energies s).or (d0.energies s)) =
        fun s => (if s = spin then some x else d.energies s).or (d0.energies s) := by
      intro x
      funext s
      by_cases hs : s = spin <;> simp [hs]
    simp only [logAfter, e]
  | overlap => rfl
  | population =>
    unfold logAfter
    simp only [List.append_assoc]

theorem log_says_after {t : Str} (d0 : LogLines.Known α) {i : Nat} {d d' : LogLines.Known α} (h : LogLines.Says t i d d') :
    LogLines.Says t i (logAfter d0 d) (logAfter d0 d') := by
  induction h with
  | done h1 => exact .done h1
  | skip h1 h2 _ ih => exact .skip h1 h2 ih
  | table h1 h2 h3 _ ih =>
    refine .table h1 h2 h3 ?_
    rw [table_after d0 _ h3]
    exact ih

theorem punAfter_none (d0 : Pun.Known α) : punAfter d0 (fun _ => none) = d0 := rfl

theorem logAfter_nothing (d0 : LogLines.Known α) : logAfter d0 LogLines.nothing = d0 := by
  unfold logAfter LogLines.nothing
  simp

/-- **C156 (punch files).** After one punch file another: it says what both say, of two tables for a spin the later one; it fails or is never
read to its end when the second one is. -/
theorem C156_pun {first : List Str} {d1 : Pun.Known α} (h : PunFirst first d1) (t : Str) :
    (∀ d2 : Pun.Known α, Pun.Says t 0 (fun _ => none) d2 → Pun.Says (unlines first ++ t) 0 (fun _ => none) (punAfter d1 d2)) ∧
    (∀ e, Pun.Fails α t 0 e → Pun.Fails α (unlines first ++ t) 0 e) ∧ (Pun.Endless α t 0 → Pun.Endless α (unlines first ++ t) 0) := by
  have hu := h.upto t
  have hm := after h.lines t
  refine ⟨fun d2 h2 => upto_says hu ?_, fun e h2 => pun_upto_fails hu ?_, fun h2 => upto_endless hu ?_⟩
  · have := move_says hm (Nat.le_refl 0) (says_after d1 h2)
    rwa [Nat.zero_add, punAfter_none] at this
  · have := move_fails hm (Nat.le_refl 0) h2
    rwa [Nat.zero_add] at this
  · have := move_never hm (Nat.le_refl 0) h2
    rwa [Nat.zero_add] at this

/-- **C156 (log files).** The same for log files: of two tables of a kind the later one, but the basis functions of both. -/
theorem C156_log {first : List Str} {t : Str} {d1 : LogLines.Known α} (h : LogFirst first t d1) :
    (∀ d2 : LogLines.Known α, LogLines.Says t 0 LogLines.nothing d2 → LogLines.Says (unlines first ++ t) 0 LogLines.nothing (logAfter d1 d2)) ∧
    (∀ x, LogLines.Fails α t 0 x → LogLines.Fails α (unlines first ++ t) 0 x) ∧ (LogLines.Endless α t 0 → LogLines.Endless α (unlines first ++ t) 0) := by
  have hu := h.upto
  have hm := after h.lines t
  refine ⟨fun d2 h2 => log_upto_says hu ?_, fun e h2 => log_upto_fails hu ?_, fun h2 => log_upto_endless hu ?_⟩
  · have := log_move_says hm (Nat.le_refl 0) (log_says_after d1 h2)
    rwa [Nat.zero_add, logAfter_nothing] at this
  · have := log_move_fails hm (Nat.le_refl 0) h2
    rwa [Nat.zero_add] at this
  · have := log_move_never hm (Nat.le_refl 0) h2
    rwa [Nat.zero_add] at this

end

/-! ### the readers -/

theorem first_fits {first : List Str} {t : Str} (h : Fits (unlines first ++ t)) : Fits t :=
  fits_le (by rw [List.length_append]; omega) h

theorem end_first {first : List Str} (h : ∀ l ∈ first, IsLine l) : NoLine (unlines first) first.length := by
  have e := lines_first first h
  refine .inr ⟨by rw [e, List.length_append]; rfl, lineAt_get ?_⟩
  rw [e, List.getElem?_append_right (Nat.le_refl _), Nat.sub_self]
  rfl

section
variable {α : Type} [Zero α] [Mul α] [Num α]

omit [Zero α] in
theorem PunFirst.says {first : List Str} {d1 : Pun.Known α} (h : PunFirst first d1) : Pun.Says (unlines first) 0 (fun _ => none) d1 :=
  upto_says h.read (.done (end_first h.lines))

omit [Zero α] in
theorem LogFirst.says {first : List Str} {t : Str} {d1 : LogLines.Known α} (h : LogFirst first t d1) : LogLines.Says (unlines first) 0 LogLines.nothing d1 :=
  log_upto_says h.read (.done (end_first h.lines))

/-- A file that is read says something. -/
theorem pun_told {fs : Str → Option Str} {name : Str} (hn : Fits name) (hfit : ∀ text, fs name = some text → Fits text) {D : PunData α}
    (h : Ends (fun n => readPun fs n name) (.ok D)) : ∃ text d, fs name = some text ∧ Pun.Says text 0 (fun _ => none) d ∧ Readers.Matches D d := by
  obtain ⟨r, hr⟩ := (Run.C122_reading (α := α) fs name).1
  have hc := Run.pun_comes hn hfit hr
  cases hr with
  | name _ => cases Ends.unique h hc
  | missing _ _ => cases Ends.unique h hc
  | @read text d _ hf hs =>
    obtain ⟨D', h1, h2⟩ := hc
    cases Ends.unique h h1
    exact ⟨text, d, hf, hs, h2⟩
  | fails _ _ _ => cases Ends.unique h hc
  | endless _ _ _ => exact absurd (Run.Does.unique (a := .ok D) (b := .diverge) h hc) (by simp)

theorem log_told {fs : Str → Option Str} {name : Str} (hn : Fits name) (hfit : ∀ text, fs name = some text → Fits text) {D : LogData α}
    (h : Ends (fun n => readLog fs n name) (.ok D)) : ∃ text d, fs name = some text ∧ LogLines.Says text 0 LogLines.nothing d ∧ LogLines.Holds D d := by
  obtain ⟨r, hr⟩ := (Run.C122_reading (α := α) fs name).2
  have hc := Run.log_comes hn hfit hr
  cases hr with
  | name _ => cases Ends.unique h hc
  | missing _ _ => cases Ends.unique h hc
  | @read text d counts _ hf hs _ =>
    obtain ⟨D', h1, h2, -⟩ := hc
    cases Ends.unique h h1
    exact ⟨text, d, hf, hs, h2⟩
  | @fails text x _ _ _ =>
    cases x with
    | throws e => exact absurd (Ends.unique h (show Ends _ (.throw e) from hc)) (by simp)
    | exits c => exact absurd (Ends.unique h (show Ends _ (.exit c) from hc)) (by simp)
  | endless _ _ _ => exact absurd (Run.Does.unique (a := .ok D) (b := .diverge) h hc) (by simp)

/-- **C156 (readers of punch files).** -/
theorem C156_pun_read (fs : Str → Option Str) {n1 n2 n : Str} (hn1 : Fits n1) (hn2 : Fits n2) (hn : Fits n) (hp : PlainName (lit ".pun") n) {first : List Str} {t : Str}
    (e1 : fs n1 = some (unlines first)) (e2 : fs n2 = some t) (e : fs n = some (unlines first ++ t)) (hfit : Fits (unlines first ++ t)) {d1 : Pun.Known α}
    (hd : PunFirst first d1) {D1 D2 : PunData α} (h1 : Ends (fun k => readPun fs k n1) (.ok D1)) (h2 : Ends (fun k => readPun fs k n2) (.ok D2)) :
    ∃ D, Ends (fun k => readPun fs k n) (.ok D) ∧ LaterPun D1 D2 D := by
  obtain ⟨t1, d1', f1, s1, m1⟩ := pun_told hn1 (fun x hx => by rw [e1] at hx; cases hx; exact fits_le (by rw [List.length_append]; omega) hfit) h1
  obtain ⟨t2, d2, f2, s2, m2⟩ := pun_told hn2 (fun x hx => by rw [e2] at hx; cases hx; exact first_fits hfit) h2
  rw [e1] at f1
  rw [e2] at f2
  cases f1
  cases f2
  cases says_once s1 hd.says
  obtain ⟨D, h3, m3⟩ := Run.pun_comes hn (fun x hx => by rw [e] at hx; cases hx; exact hfit) (.read hp e ((C156_pun hd t).1 d2 s2))
  refine ⟨D, h3, fun spin M hM => ?_, fun spin hM => ?_⟩
  · unfold PunData.getCoefsMatrix at hM ⊢
    cases hs : d2 spin with
    | none => rw [(m2.1 spin).1 hs] at hM; cases hM
    | some rows =>
      obtain ⟨m, a1, a2⟩ := (m2.1 spin).2 rows hs
      obtain ⟨m', b1, b2⟩ := (m3.1 spin).2 rows (by unfold punAfter; rw [hs]; rfl)
      cases a2.symm.trans b2
      rw [a1] at hM
      rw [b1]
      exact hM
  · unfold PunData.getCoefsMatrix at hM ⊢
    cases hs : d2 spin with
    | some rows =>
      obtain ⟨m, a1, a2⟩ := (m2.1 spin).2 rows hs
      exact absurd (show (match D2.get spin.name with | some m => Res.ok m | none => Res.throw Exn.invalidArgument) = .ok m by rw [a1]) (hM m)
    | none =>
      have e3 : punAfter d1 d2 spin = d1 spin := by unfold punAfter; rw [hs]; rfl
      cases hs1 : d1 spin with
      | none => rw [(m3.1 spin).1 (e3.trans hs1), (m1.1 spin).1 hs1]
      | some rows =>
        obtain ⟨m, a1, a2⟩ := (m1.1 spin).2 rows hs1
        obtain ⟨m', b1, b2⟩ := (m3.1 spin).2 rows (e3.trans hs1)
        cases a2.symm.trans b2
        rw [a1, b1]

/-- **C156 (readers of log files).** -/
theorem C156_log_read (fs : Str → Option Str) {n1 n2 n : Str} (hn1 : Fits n1) (hn2 : Fits n2) (hn : Fits n) (hp : PlainName (lit ".log") n) {first : List Str} {t : Str}
    (e1 : fs n1 = some (unlines first)) (e2 : fs n2 = some t) (e : fs n = some (unlines first ++ t)) (hfit : Fits (unlines first ++ t)) {d1 : LogLines.Known α}
    (hd : LogFirst first t d1) {D1 D2 : LogData α} (h1 : Ends (fun k => readLog fs k n1) (.ok D1)) (h2 : Ends (fun k => readLog fs k n2) (.ok D2)) :
    ∃ D, Ends (fun k => readLog fs k n) (.ok D) ∧ LaterLog D1 D2 D := by
  obtain ⟨t1, d1', f1, s1, m1⟩ := log_told hn1 (fun x hx => by rw [e1] at hx; cases hx; exact fits_le (by rw [List.length_append]; omega) hfit) h1
  obtain ⟨t2, d2, f2, s2, m2⟩ := log_told hn2 (fun x hx => by rw [e2] at hx; cases hx; exact first_fits hfit) h2
  rw [e1] at f1
  rw [e2] at f2
  cases f1
  cases f2
  cases log_says_once s1 hd.says
  obtain ⟨r, hr⟩ := (Run.C122_reading (α := α) fs n).2
  have hs := (C156_log hd).1 d2 s2
  obtain ⟨o1, o2, -, -⟩ := LogLines.C120_one (α := α) _ hfit
  obtain ⟨D, h3, m3⟩ : ∃ D, Ends (fun k => readLog fs k n) (.ok D) ∧ LogLines.Holds D (logAfter d1 d2) := by
    have hc := Run.log_comes hn (fun x hx => by rw [e] at hx; cases hx; exact hfit) hr
    cases hr with
    | name g => exact absurd hp g
    | missing _ g => rw [e] at g; cases g
    | read _ g g2 _ =>
      rw [e] at g
      cases g
      cases log_says_once g2 hs
      obtain ⟨D, a, b, -⟩ := hc
      exact ⟨D, a, b⟩
    | fails _ g g2 => rw [e] at g; cases g; exact absurd g2 (o1 _ _ hs)
    | endless _ g g2 => rw [e] at g; cases g; exact absurd g2 (o2 _ hs)
  refine ⟨D, h3, ?_, fun spin => ?_, ?_⟩
  · have a1 := m1.gives.coords
    have a2 := m2.gives.coords
    have a3 := m3.gives.coords
    have ec : (logAfter d1 d2).coords = d2.coords.or d1.coords := rfl
    rw [ec] at a3
    cases hc : d2.coords with
    | none => rw [hc] at a2 a3; rw [a3, a2, a1]; rfl
    | some rows => rw [hc] at a2 a3; rw [a3, a2]; rfl
  · have a1 := m1.gives.energies spin
    have a2 := m2.gives.energies spin
    have a3 := m3.gives.energies spin
    have b1 := m1.gives.homo spin
    have b2 := m2.gives.homo spin
    have b3 := m3.gives.homo spin
    have ec : (logAfter d1 d2).energies spin = (d2.energies spin).or (d1.energies spin) := rfl
    rw [ec] at a3 b3
    cases hc : d2.energies spin with
    | none =>
      rw [hc] at a2 a3 b2 b3
      exact ⟨fun es h => (by rw [a2] at h; cases h), fun _ => ⟨a3.trans a1.symm, b3.trans b1.symm⟩⟩
    | some x =>
      rw [hc] at a2 a3 b2 b3
      exact ⟨fun es h => ⟨a3.trans (a2.symm.trans h), b3.trans b2.symm⟩, fun h => absurd a2 (h _)⟩
  · have a1 := m1.S
    have a2 := m2.S
    have a3 := m3.S
    have ec : (logAfter d1 d2).overlap = d2.overlap.or d1.overlap := rfl
    rw [ec] at a3
    have none' : ∀ D : LogData α, D.S = none → D.getOverlapMatrix = .ub := fun D h => by unfold LogData.getOverlapMatrix; rw [h]
    have some' : ∀ (D : LogData α) m, D.S = some m → D.getOverlapMatrix = .ok m := fun D m h => by unfold LogData.getOverlapMatrix; rw [h]
    cases hc : d2.overlap with
    | none =>
      rw [hc] at a2 a3
      refine ⟨fun S h => (by rw [none' _ a2] at h; cases h), fun _ => ?_⟩
      cases hc1 : d1.overlap with
      | none => rw [hc1] at a1 a3; rw [none' _ a1, none' _ a3]
      | some x =>
        rw [hc1] at a1 a3
        obtain ⟨m, c1, -, c2⟩ := a1
        obtain ⟨m', c1', -, c2'⟩ := a3
        rw [some' _ _ c1, some' _ _ c1', Mat.IsMat.ext c2' c2]
    | some x =>
      rw [hc] at a2 a3
      obtain ⟨m, c1, -, c2⟩ := a2
      obtain ⟨m', c1', -, c2'⟩ := a3
      refine ⟨fun S h => ?_, fun h => absurd (some' _ _ c1) (h m)⟩
      rw [some' _ _ c1] at h
      cases h
      rw [some' _ _ c1', Mat.IsMat.ext c2' c2]

end

/-! ### calc_J -/

section
variable {α : Type} [Mul α] [Num α]

/-- What matters of a log file: not which functions are listed but how many each atom has. -/
def matters (r : Res (LogLines.Known α × List Int)) : Res (LogLines.Known α × List Int) := r >>= fun x => .ok ({ x.1 with functions := [] }, x.2)

theorem counts_more {fs gs : List ((Nat × Str) × Str)} {counts : List Int} (h : LogLines.Counts gs counts) (hs : ∀ x ∈ fs, x ∈ gs) :
    LogLines.Counts (fs ++ gs) counts := by
  obtain ⟨table, h1, h2, h3, h4⟩ := h
  refine ⟨table, h1, h2, fun key label => ?_, h4⟩
  rw [← h3, List.mem_append]
  exact ⟨fun h => h.elim (hs _) id, .inr⟩

theorem pun_joined {files files' : Str → Option Str} (hj : FilesJoined α files files') {name : Str} {r : Res (Pun.Known α)}
    (h : Run.PunFile files name r) : Run.PunFile files' name r := by
  have some' : ∀ t, files name = some t → ∃ t', files' name = some t' := fun t e => by
    cases e' : files' name with
    | none => rw [(hj.names name).1 e'] at e; cases e
    | some t' => exact ⟨t', rfl⟩
  cases h with
  | name hp => exact .name hp
  | missing hp hf => exact .missing hp ((hj.names name).2 hf)
  | @read t d2 hp hf h1 =>
    obtain ⟨t', e⟩ := some' _ hf
    obtain ⟨first, d1, rfl, h2, h3⟩ := hj.pun _ _ _ hp hf e
    have e2 : punAfter d1 d2 = d2 := by
      funext spin
      unfold punAfter
      cases hd : d2 spin with
      | none => rw [h3 d2 h1 spin hd]; rfl
      | some x => rfl
    have := (C156_pun h2 t).1 d2 h1
    rw [e2] at this
    exact .read hp e this
  | fails hp hf h1 =>
    obtain ⟨t', e⟩ := some' _ hf
    obtain ⟨first, d1, rfl, h2, -⟩ := hj.pun _ _ _ hp hf e
    exact .fails hp e ((C156_pun h2 _).2.1 _ h1)
  | endless hp hf h1 =>
    obtain ⟨t', e⟩ := some' _ hf
    obtain ⟨first, d1, rfl, h2, -⟩ := hj.pun _ _ _ hp hf e
    exact .endless hp e ((C156_pun h2 _).2.2 h1)

theorem log_joined {files files' : Str → Option Str} (hj : FilesJoined α files files') {name : Str} {r : Res (LogLines.Known α × List Int)}
    (h : Run.LogFile files name r) : ∃ r', Run.LogFile files' name r' ∧ matters r' = matters r := by
  have some' : ∀ t, files name = some t → ∃ t', files' name = some t' := fun t e => by
    cases e' : files' name with
    | none => rw [(hj.names name).1 e'] at e; cases e
    | some t' => exact ⟨t', rfl⟩
  cases h with
  | name hp => exact ⟨_, .name hp, rfl⟩
  | missing hp hf => exact ⟨_, .missing hp ((hj.names name).2 hf), rfl⟩
  | @read t d2 counts hp hf h1 hc =>
    obtain ⟨t', e⟩ := some' _ hf
    obtain ⟨first, d1, rfl, h2, h3⟩ := hj.log _ _ _ hp hf e
    obtain ⟨a1, a2, a3, a4⟩ := h3 d2 h1
    refine ⟨_, .read hp e ((C156_log h2).1 d2 h1) (counts_more hc a4), ?_⟩
    have e1 : d2.coords.or d1.coords = d2.coords := by
      cases hd : d2.coords with
      | none => rw [a1 hd]; rfl
      | some x => rfl
    have e2 : (fun spin => (d2.energies spin).or (d1.energies spin)) = d2.energies := by
      funext spin
      cases hd : d2.energies spin with
      | none => rw [a2 spin hd]; rfl
      | some x => rfl
    have e3 : d2.overlap.or d1.overlap = d2.overlap := by
      cases hd : d2.overlap with
      | none => rw [a3 hd]; rfl
      | some x => rfl
    unfold matters
    simp only [Res.ok_bind, logAfter, e1, e2, e3]
  | fails hp hf h1 =>
    obtain ⟨t', e⟩ := some' _ hf
    obtain ⟨first, d1, rfl, h2, -⟩ := hj.log _ _ _ hp hf e
    exact ⟨_, .fails hp e ((C156_log h2).2.1 _ h1), rfl⟩
  | endless hp hf h1 =>
    obtain ⟨t', e⟩ := some' _ hf
    obtain ⟨first, d1, rfl, h2, -⟩ := hj.log _ _ _ hp hf e
    exact ⟨_, .endless hp e ((C156_log h2).2.2 h1), rfl⟩

end

section
variable {α β : Type} [Zero α] [One α] [Add α] [Sub α] [Mul α] [Div α] [Num α] [DecidableEq β] {D : Type} [Args.Dbl D]

theorem calcJ_matters (tos : α → β) (par : Params.Params) (spinP spin1 spin2 : Log.Spin) (punP pun1 pun2 : Res (Pun.Known α))
    (logP log1 log2 : Res (LogLines.Known α × List Int)) :
    Run.calcJ tos par spinP spin1 spin2 punP pun1 pun2 (matters logP) (matters log1) (matters log2) =
      Run.calcJ tos par spinP spin1 spin2 punP pun1 pun2 logP log1 log2 := by
  unfold Run.calcJ matters
  simp only [bind_assoc, Res.ok_bind, Run.found]

theorem run_matters (tos : α → β) (files files' : Str → Option Str) (hfit : ∀ name text, files name = some text → Fits text)
    (hfit' : ∀ name text, files' name = some text → Fits text) (names : ∀ name, files' name = none ↔ files name = none)
    (hpun : ∀ name (r : Res (Pun.Known α)), Run.PunFile files name r → Run.PunFile files' name r)
    (hlog : ∀ name (r : Res (LogLines.Known α × List Int)), Run.LogFile files name r → ∃ r', Run.LogFile files' name r' ∧ matters r' = matters r)
    (args : List Str) (hargs : ∀ v ∈ args, v.length + 4 < 2 ^ 63) (out : Res (Params.Params × Report α)) :
    Run.Does (fun fuel => calcJRun D tos files fuel args) out ↔ Run.Does (fun fuel => calcJRun D tos files' fuel args) out := by
  have hp := fun name => (Run.C122_reading (α := α) files name).1.choose_spec
  have hl := fun name => (Run.C122_reading (α := α) files name).2.choose_spec
  have hp' := fun name => hpun name _ (hp name)
  have hl' := fun name => (hlog name _ (hl name)).choose_spec
  rw [Run.C124_line tos files hfit _ hp _ hl args hargs, Run.C124_line tos files' hfit' _ hp' _ (fun name => (hl' name).1) args hargs]
  have e : (fun name => (files' name).isSome) = fun name => (files name).isSome := by
    funext name
    have := names name
    cases h1 : files name <;> cases h2 : files' name <;> simp_all
  have key : ∀ (f f' : Str → Option Str) (pun : Str → Res (Pun.Known α)) (log log' : Str → Res (LogLines.Known α × List Int)),
      (fun name => (f' name).isSome) = (fun name => (f name).isSome) → (∀ name, matters (log' name) = matters (log name)) →
      Run.Line tos f pun log args out → Run.Line tos f' pun log' args out := by
    intro f f' pun log log' e em h
    cases h with
    | version h1 => exact .version h1
    | info h1 h2 => exact .info h1 h2
    | nothing h1 => exact .nothing h1
    | refused h1 => exact .refused h1
    | @understood as r n1 n2 sP s1 s2 h1 h2 h3 h4 h5 h6 h7 =>
      have eq : (fun par : Params.Params => Run.calcJ tos par sP s1 s2 (pun par.punP) (pun par.pun1) (pun par.pun2) (log par.logP) (log par.log1) (log par.log2)) =
          fun par => Run.calcJ tos par sP s1 s2 (pun par.punP) (pun par.pun1) (pun par.pun2) (log' par.logP) (log' par.log1) (log' par.log2) := by
        funext par
        rw [← calcJ_matters (logP := log par.logP), ← calcJ_matters (logP := log' par.logP), em, em, em]
      have h := Run.Line.understood (tos := tos) (pun := pun) (log := log') (files := f') h1 (by rw [e]; exact h2) h3 h4 h5 h6 h7
      exact (congrArg (Run.parameters as r n1 n2 >>= ·) eq) ▸ h
  exact ⟨key _ _ _ _ _ e fun name => (hl' name).2, key _ _ _ _ _ e.symm fun name => (hl' name).2.symm⟩

/-- **C156 (calc_J).** With the output of an earlier calculation in front of any of the files, calc_J does the same on every command line. -/
theorem C156_run (tos : α → β) (files files' : Str → Option Str) (hfit : ∀ name text, files name = some text → Fits text)
    (hfit' : ∀ name text, files' name = some text → Fits text) (hj : FilesJoined α files files') (args : List Str)
    (hargs : ∀ v ∈ args, v.length + 4 < 2 ^ 63) (out : Res (Params.Params × Report α)) :
    Run.Does (fun fuel => calcJRun D tos files fuel args) out ↔ Run.Does (fun fuel => calcJRun D tos files' fuel args) out :=
  run_matters tos files files' hfit hfit' hj.names (fun _ _ h => pun_joined hj h) (fun _ _ h => log_joined hj h) args hargs out

end
end Verif.Joined
