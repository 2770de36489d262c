import Verif.ChatterOnce
import Verif.Props.CrlfRun
import Verif.Props.EveryLine
/-
C154: lines of the files that belong to no table.
-/
namespace Verif.Chatter
open Readers Log Strings CutOff QC
open Pun (NoLine)

/-! ### texts with lines added -/

theorem lines_unlines (ls : List Str) (h : ∀ l ∈ ls, IsLine l) (rest : Str) : textLines (unlines ls ++ rest) = ls ++ textLines rest := by
  induction ls with
  | nil => rfl
  | cons l ls ih =>
    have e : unlines (l :: ls) ++ rest = l ++ '\n' :: (unlines ls ++ rest) := by
      show (l ++ ['\n'] ++ unlines ls) ++ rest = _
      simp
    rw [e, textLines_line (h l (by simp)), ih fun x hx => h x (by simp [hx])]
    rfl

/-- **C154 (what it is to add lines).** Of two texts that begin and end alike, one with further lines between. -/
theorem C154_inserted (before extra : List Str) (hb : ∀ l ∈ before, IsLine l) (he : ∀ l ∈ extra, IsLine l) (rest : Str) :
    Inserted (unlines before ++ rest) (unlines before ++ (unlines extra ++ rest)) before.length extra := by
  have e := lines_unlines before hb rest
  have hne := List.length_pos_iff.2 (textLines_ne rest)
  refine ⟨by rw [e, List.length_append]; omega, ?_⟩
  rw [lines_unlines before hb, lines_unlines extra he, e, List.take_left, List.drop_left, List.append_assoc]

section
variable {t t' : Str} {m : Nat} {extra : List Str} (h : Inserted t t' m extra)
include h

theorem Inserted.len : (textLines t').length = (textLines t).length + extra.length := by
  have := h.line
  rw [h.text]
  simp only [List.length_append, List.length_take, List.length_drop]
  omega

theorem get_line {s : Str} {j : Nat} (hj : j < (textLines s).length) : (textLines s)[j]? = some (lineAt s j) := by
  unfold lineAt
  rw [List.getD_eq_getElem?_getD, List.getElem?_eq_getElem hj]
  rfl

theorem Inserted.before {j : Nat} (hj : j < m) : lineAt t' j = lineAt t j := by
  have hl := h.line
  refine lineAt_get ?_
  rw [h.text, List.append_assoc, List.getElem?_append_left (by rw [List.length_take]; omega), List.getElem?_take_of_lt hj]
  exact get_line h (by omega)

theorem Inserted.added {j : Nat} (hj : j < extra.length) : lineAt t' (m + j) = extra[j] := by
  have hl := h.line
  refine lineAt_get ?_
  rw [h.text, List.append_assoc, List.getElem?_append_right (by rw [List.length_take]; omega), List.length_take, show m + j - min m (textLines t).length = j by omega,
    List.getElem?_append_left hj, List.getElem?_eq_getElem hj]

theorem Inserted.moved : Moved t t' m extra.length where
  len := h.len
  line {j} hj := by
    have hl := h.line
    have hlen := h.len
    have key : ∀ j, m ≤ j → j < (textLines t).length → lineAt t' (j + extra.length) = lineAt t j := by
      intro j hj hjl
      refine lineAt_get ?_
      rw [h.text, List.getElem?_append_right (by rw [List.length_append, List.length_take]; omega), List.length_append, List.length_take, List.getElem?_drop,
        show m + (j + extra.length - (min m (textLines t).length + extra.length)) = j by omega]
      exact get_line h hjl
    by_cases hjl : j < (textLines t).length
    · exact key j hj hjl
    · have e1 : ∀ s : Str, ∀ i, (textLines s).length ≤ i → lineAt s i = lineAt s ((textLines s).length - 1) := by
        intro s i hi
        have hne := List.length_pos_iff.2 (textLines_ne s)
        rw [lineAt_over (by omega)]
        symm
        refine lineAt_get ?_
        rw [List.getLastD_eq_getLast?, List.getLast?_eq_getElem?]
        rw [List.getElem?_eq_getElem (by omega)]
        rfl
      rw [e1 t' _ (by omega), e1 t _ (by omega), hlen, ← key _ (show m ≤ (textLines t).length - 1 by omega) (by omega)]
      congr 1
      omega

/-- Where there are lines to add, there is no end of the text. -/
theorem Inserted.extra_some {j : Nat} (hj : j < extra.length) : ¬ NoLine t' (m + j) := by
  have hl := h.line
  unfold NoLine
  rw [h.len]
  omega

theorem Inserted.nothing (he : extra = []) {j : Nat} : (textLines t') = textLines t ∧ lineAt t' j = lineAt t j := by
  have e : textLines t' = textLines t := by rw [h.text, he, List.append_nil, List.take_append_drop]
  exact ⟨e, by unfold lineAt; rw [e]⟩

theorem Inserted.begins : Begins t t' m where
  len := h.line
  len' := by rw [h.len]; have := h.line; omega
  before := h.before

theorem Inserted.keeps (hc : ∀ l ∈ extra, LogChat l) : Keeps t t' m where
  toBegins := h.begins
  edge spin he := by
    by_cases hx : extra = []
    · obtain ⟨e1, e2⟩ := h.nothing hx (j := m)
      unfold NoLine at *
      rw [e1, e2]
      exact he
    · have hpos := List.length_pos_iff.2 hx
      have := h.added hpos
      rw [Nat.add_zero] at this
      rw [this]
      exact .inr ((hc _ (List.getElem_mem _)).2 spin)

end

section
variable {α : Type} [Mul α] [Num α] {t t' : Str} {m : Nat} {extra : List Str} (h : Inserted t t' m extra)
include h

/-! ### the added lines are skipped -/

theorem pun_over (hc : ∀ l ∈ extra, PunChat l) (d : Pun.Known α) (j : Nat) (hj : j ≤ extra.length) : Pun.Upto t' (m + (extra.length - j)) d (m + extra.length) d := by
  induction j with
  | zero => exact .here
  | succ j ih =>
    have hlt : extra.length - (j + 1) < extra.length := by omega
    refine .skip (h.extra_some hlt) ?_ ?_
    · rw [h.added hlt]
      exact hc _ (List.getElem_mem _)
    · have := ih (by omega)
      rwa [show m + (extra.length - j) = m + (extra.length - (j + 1)) + 1 by omega] at this

theorem log_over (hc : ∀ l ∈ extra, LogChat l) (d : LogLines.Known α) (j : Nat) (hj : j ≤ extra.length) : LogLines.Upto t' (m + (extra.length - j)) d (m + extra.length) d := by
  induction j with
  | zero => exact .here
  | succ j ih =>
    have hlt : extra.length - (j + 1) < extra.length := by omega
    refine .skip (h.extra_some hlt) ?_ ?_
    · rw [h.added hlt]
      exact (hc _ (List.getElem_mem _)).1
    · have := ih (by omega)
      rwa [show m + (extra.length - j) = m + (extra.length - (j + 1)) + 1 by omega] at this

omit h in
theorem upto_trans {i j k : Nat} {d d' d'' : Pun.Known α} (h1 : Pun.Upto t i d j d') (h2 : Pun.Upto t j d' k d'') : Pun.Upto t i d k d'' := by
  induction h1 with
  | here => exact h2
  | skip a b _ ih => exact .skip a b (ih h2)
  | table a b c e _ ih => exact .table a b c e (ih h2)

omit h in
theorem log_upto_trans {i j k : Nat} {d d' d'' : LogLines.Known α} (h1 : LogLines.Upto t i d j d') (h2 : LogLines.Upto t j d' k d'') : LogLines.Upto t i d k d'' := by
  induction h1 with
  | here => exact h2
  | skip a b _ ih => exact .skip a b (ih h2)
  | table a b c _ ih => exact .table a b c (ih h2)

theorem pun_past {d0 d : Pun.Known α} (hu : Pun.Upto t 0 d0 m d) (hc : ∀ l ∈ extra, PunChat l) : Pun.Upto t' 0 d0 (m + extra.length) d := by
  have := pun_over h hc d extra.length (Nat.le_refl _)
  rw [Nat.sub_self] at this
  exact upto_trans (keep_upto h.begins (Nat.le_refl _) hu) this

theorem log_past {d0 d : LogLines.Known α} (hu : LogLines.Upto t 0 d0 m d) (hc : ∀ l ∈ extra, LogChat l) : LogLines.Upto t' 0 d0 (m + extra.length) d := by
  have := log_over h hc d extra.length (Nat.le_refl _)
  rw [Nat.sub_self] at this
  exact log_upto_trans (log_keep_upto (h.keeps hc) (Nat.le_refl _) hu) this

end

/-! ### what comes of reading -/

theorem Inserted.longer {t t' : Str} {m : Nat} {extra : List Str} (h : Inserted t t' m extra) : t.length ≤ t'.length := by
  have e := length_lines t
  have e' := length_lines t'
  rw [h.text] at e'
  conv at e => lhs; rw [← List.take_append_drop m (textLines t)]
  simp only [List.map_append, List.sum_append] at e e'
  omega

theorem fits_le {s t : Str} (h : s.length ≤ t.length) (ht : Fits t) : Fits s := by
  unfold Fits at *
  omega

section
variable {α : Type} [Mul α] [Num α]

theorem pun_upto_fails {t : Str} {i j : Nat} {d d' : Pun.Known α} (hu : Pun.Upto t i d j d') {e : Exn} (hs : Pun.Fails α t j e) : Pun.Fails α t i e := by
  induction hu with
  | here => exact hs
  | skip h1 h2 _ ih => exact .skip h1 h2 (ih hs)
  | table h1 h2 h3 h4 _ ih => exact .table h1 h2 h3 h4 (ih hs)

theorem pun_step [Zero α] {t t' : Str} {m : Nat} {extra : List Str} (h : Inserted t t' m extra) {d : Pun.Known α} (hu : Pun.Upto t 0 (fun _ => none) m d)
    (hc : ∀ l ∈ extra, PunChat l) (ht : Fits t) :
    (∀ d : Pun.Known α, Pun.Says t 0 (fun _ => none) d → Pun.Says t' 0 (fun _ => none) d) ∧ (∀ e, Pun.Fails α t 0 e → Pun.Fails α t' 0 e) ∧
      (Pun.Endless α t 0 → Pun.Endless α t' 0) := by
  have hp := pun_past h hu hc
  obtain ⟨one1, one2, one3, one4⟩ := Readers.C119_one (α := α) t ht
  rcases Readers.file_trichotomy (α := α) t _ m d (Nat.le_refl _) with ⟨d', hs⟩ | ⟨e, hs⟩ | hs
  · have h0 := upto_says hu hs
    refine ⟨fun d1 h1 => ?_, fun e h1 => absurd h1 (one1 _ _ h0), fun h1 => absurd h1 (one2 _ h0)⟩
    rw [says_once h1 h0]
    exact upto_says hp (move_says h.moved (Nat.le_refl _) hs)
  · have h0 := pun_upto_fails hu hs
    refine ⟨fun d1 h1 => absurd h0 (one1 _ _ h1), fun e1 h1 => ?_, fun h1 => absurd h1 (one3 _ h0)⟩
    rw [one4 _ _ h1 h0]
    exact pun_upto_fails hp (move_fails h.moved (Nat.le_refl _) hs)
  · have h0 := upto_endless hu hs
    exact ⟨fun d1 h1 => absurd h0 (one2 _ h1), fun e1 h1 => absurd h0 (one3 _ h1), fun _ => upto_endless hp (move_never h.moved (Nat.le_refl _) hs)⟩

theorem log_step [Zero α] {t t' : Str} {m : Nat} {extra : List Str} (h : Inserted t t' m extra) {d : LogLines.Known α} (hu : LogLines.Upto t 0 LogLines.nothing m d)
    (hc : ∀ l ∈ extra, LogChat l) (ht : Fits t) :
    (∀ d : LogLines.Known α, LogLines.Says t 0 LogLines.nothing d → LogLines.Says t' 0 LogLines.nothing d) ∧ (∀ e, LogLines.Fails α t 0 e → LogLines.Fails α t' 0 e) ∧
      (LogLines.Endless α t 0 → LogLines.Endless α t' 0) := by
  have hp := log_past h hu hc
  obtain ⟨one1, one2, one3, one4⟩ := LogLines.C120_one (α := α) t ht
  rcases LogLines.file_trichotomy (α := α) t _ m d (Nat.le_refl _) with ⟨d', hs⟩ | ⟨e, hs⟩ | hs
  · have h0 := log_upto_says hu hs
    refine ⟨fun d1 h1 => ?_, fun e h1 => absurd h1 (one1 _ _ h0), fun h1 => absurd h1 (one2 _ h0)⟩
    rw [log_says_once h1 h0]
    exact log_upto_says hp (log_move_says h.moved (Nat.le_refl _) hs)
  · have h0 := log_upto_fails hu hs
    refine ⟨fun d1 h1 => absurd h0 (one1 _ _ h1), fun e1 h1 => ?_, fun h1 => absurd h1 (one3 _ h0)⟩
    rw [one4 _ _ h1 h0]
    exact log_upto_fails hp (log_move_fails h.moved (Nat.le_refl _) hs)
  · have h0 := log_upto_endless hu hs
    exact ⟨fun d1 h1 => absurd h0 (one2 _ h1), fun e1 h1 => absurd h0 (one3 _ h1), fun _ => log_upto_endless hp (log_move_never h.moved (Nat.le_refl _) hs)⟩

theorem PunAdded.longer {t t' : Str} (h : PunAdded α t t') : t.length ≤ t'.length := by
  induction h with
  | none => exact Nat.le_refl _
  | lines _ h2 _ _ ih => exact Nat.le_trans ih h2.longer

theorem LogAdded.longer {t t' : Str} (h : LogAdded α t t') : t.length ≤ t'.length := by
  induction h with
  | none => exact Nat.le_refl _
  | lines _ h2 _ _ ih => exact Nat.le_trans ih h2.longer

theorem pun_chain [Zero α] {t t' : Str} (h : PunAdded α t t') (ht : Fits t') :
    (∀ d : Pun.Known α, Pun.Says t 0 (fun _ => none) d → Pun.Says t' 0 (fun _ => none) d) ∧ (∀ e, Pun.Fails α t 0 e → Pun.Fails α t' 0 e) ∧
      (Pun.Endless α t 0 → Pun.Endless α t' 0) := by
  induction h with
  | none => exact ⟨fun _ h => h, fun _ h => h, fun h => h⟩
  | lines h1 h2 h3 h4 ih =>
    have hf := fits_le h2.longer ht
    obtain ⟨a, b, c⟩ := ih hf
    obtain ⟨a', b', c'⟩ := pun_step h2 h3 h4 hf
    exact ⟨fun d hd => a' d (a d hd), fun e he => b' e (b e he), fun hh => c' (c hh)⟩

theorem log_chain [Zero α] {t t' : Str} (h : LogAdded α t t') (ht : Fits t') :
    (∀ d : LogLines.Known α, LogLines.Says t 0 LogLines.nothing d → LogLines.Says t' 0 LogLines.nothing d) ∧ (∀ e, LogLines.Fails α t 0 e → LogLines.Fails α t' 0 e) ∧
      (LogLines.Endless α t 0 → LogLines.Endless α t' 0) := by
  induction h with
  | none => exact ⟨fun _ h => h, fun _ h => h, fun h => h⟩
  | lines h1 h2 h3 h4 ih =>
    have hf := fits_le h2.longer ht
    obtain ⟨a, b, c⟩ := ih hf
    obtain ⟨a', b', c'⟩ := log_step h2 h3 h4 hf
    exact ⟨fun d hd => a' d (a d hd), fun e he => b' e (b e he), fun hh => c' (c hh)⟩

/-- What comes of reading a file of coefficients comes of reading it with the lines added. -/
theorem pun_common [Zero α] {files files' : Str → Option Str} {name : Str} (hn : files' name = none ↔ files name = none)
    (hs : ∀ t t', PlainName (lit ".pun") name → files name = some t → files' name = some t' → PunAdded α t t')
    (ht : ∀ text, files' name = some text → Fits text) {r : Res (Pun.Known α)} (h : Run.PunFile files name r) : Run.PunFile files' name r := by
  have some' : ∀ t, files name = some t → ∃ t', files' name = some t' := fun t e => by
    cases e' : files' name with
    | none => rw [hn.1 e'] at e; cases e
    | some t' => exact ⟨t', rfl⟩
  cases h with
  | name hp => exact .name hp
  | missing hp hf => exact .missing hp (hn.2 hf)
  | read hp hf h1 =>
    obtain ⟨t', e⟩ := some' _ hf
    exact .read hp e ((pun_chain (hs _ _ hp hf e) (ht _ e)).1 _ h1)
  | fails hp hf h1 =>
    obtain ⟨t', e⟩ := some' _ hf
    exact .fails hp e ((pun_chain (hs _ _ hp hf e) (ht _ e)).2.1 _ h1)
  | endless hp hf h1 =>
    obtain ⟨t', e⟩ := some' _ hf
    exact .endless hp e ((pun_chain (hs _ _ hp hf e) (ht _ e)).2.2 h1)

theorem log_common [Zero α] {files files' : Str → Option Str} {name : Str} (hn : files' name = none ↔ files name = none)
    (hs : ∀ t t', PlainName (lit ".log") name → files name = some t → files' name = some t' → LogAdded α t t')
    (ht : ∀ text, files' name = some text → Fits text) {r : Res (LogLines.Known α × List Int)} (h : Run.LogFile files name r) : Run.LogFile files' name r := by
  have some' : ∀ t, files name = some t → ∃ t', files' name = some t' := fun t e => by
    cases e' : files' name with
    | none => rw [hn.1 e'] at e; cases e
    | some t' => exact ⟨t', rfl⟩
  cases h with
  | name hp => exact .name hp
  | missing hp hf => exact .missing hp (hn.2 hf)
  | read hp hf h1 hc =>
    obtain ⟨t', e⟩ := some' _ hf
    exact .read hp e ((log_chain (hs _ _ hp hf e) (ht _ e)).1 _ h1) hc
  | fails hp hf h1 =>
    obtain ⟨t', e⟩ := some' _ hf
    exact .fails hp e ((log_chain (hs _ _ hp hf e) (ht _ e)).2.1 _ h1)
  | endless hp hf h1 =>
    obtain ⟨t', e⟩ := some' _ hf
    exact .endless hp e ((log_chain (hs _ _ hp hf e) (ht _ e)).2.2 h1)

end

theorem same_reading {γ δ : Type} {R : γ → δ → Prop} {same : γ → γ → Prop} (hsame : ∀ D D' d, R D d → R D' d → same D D') {f f' : Nat → Res γ} {r : Res δ}
    (h : Run.Comes R f r) (h' : Run.Comes R f' r) : SameReading same f f' := by
  obtain ⟨a, b, c, g⟩ := Crlf.comes_both h h'
  obtain ⟨a', b', c', g'⟩ := Crlf.comes_both h' h
  refine ⟨fun D hD => ?_, fun D hD => ?_, fun e => ⟨b e, b' e⟩, fun e => ⟨c e, c' e⟩, ⟨g, g'⟩⟩
  · obtain ⟨D', e, d, m1, m2⟩ := a D hD
    exact ⟨D', e, hsame _ _ d m1 m2⟩
  · obtain ⟨D', e, d, m1, m2⟩ := a' D hD
    exact ⟨D', e, hsame _ _ d m2 m1⟩

section
variable {α : Type} [Zero α] [Mul α] [Num α]

theorem same_log {D D' : LogData α} {d : LogLines.Known α × List Int} (h : LogLines.Holds D d.1 ∧ D.getBasisFuncCount = d.2)
    (h' : LogLines.Holds D' d.1 ∧ D'.getBasisFuncCount = d.2) : Crlf.SameLog D D' where
  coords := h'.1.gives.coords.trans h.1.gives.coords.symm
  energies spin := (h'.1.gives.energies spin).trans (h.1.gives.energies spin).symm
  homo spin := (h'.1.gives.homo spin).trans (h.1.gives.homo spin).symm
  overlap := by
    have e := h.1.S
    have e' := h'.1.S
    unfold LogData.getOverlapMatrix
    cases hd : d.1.overlap with
    | none => rw [hd] at e e'; rw [show D.S = none from e, show D'.S = none from e']
    | some x =>
      rw [hd] at e e'
      obtain ⟨m, e1, -, e2⟩ := e
      obtain ⟨m', e1', -, e2'⟩ := e'
      rw [e1, e1', Mat.IsMat.ext e2 e2']
  functions := h'.2.trans h.2.symm

/-- **C154 (punch files).** Lines that announce nothing, added to a punch file in places that are not within a table, do not matter. -/
theorem C154_pun (files files' : Str → Option Str) (name : Str) {t t' : Str} (hfit : Fits name) (h : files name = some t) (h' : files' name = some t')
    (ht : Fits t') (ha : PunAdded α t t') :
    SameReading Crlf.SamePun (fun n => (readPun files n name : Res (PunData α))) (fun n => (readPun files' n name : Res (PunData α))) := by
  have ht1 : ∀ text, files name = some text → Fits text := fun s e => by rw [h] at e; cases e; exact fits_le ha.longer ht
  have ht2 : ∀ text, files' name = some text → Fits text := fun s e => by rw [h'] at e; cases e; exact ht
  obtain ⟨r, hr⟩ := (Run.C122_reading (α := α) files name).1
  have hr' := pun_common (files' := files') (by rw [h, h']; simp) (fun s s' _ e e' => by rw [h] at e; rw [h'] at e'; cases e; cases e'; exact ha) ht2 hr
  exact same_reading (R := Readers.Matches) (fun D D' d m1 m2 => Crlf.same_pun m1 m2) (Run.pun_comes hfit ht1 hr) (Run.pun_comes hfit ht2 hr')

/-- **C154 (log files).** The same for a log file. -/
theorem C154_log (files files' : Str → Option Str) (name : Str) {t t' : Str} (hfit : Fits name) (h : files name = some t) (h' : files' name = some t')
    (ht : Fits t') (ha : LogAdded α t t') :
    SameReading Crlf.SameLog (fun n => (readLog files n name : Res (LogData α))) (fun n => (readLog files' n name : Res (LogData α))) := by
  have ht1 : ∀ text, files name = some text → Fits text := fun s e => by rw [h] at e; cases e; exact fits_le ha.longer ht
  have ht2 : ∀ text, files' name = some text → Fits text := fun s e => by rw [h'] at e; cases e; exact ht
  obtain ⟨r, hr⟩ := (Run.C122_reading (α := α) files name).2
  have hr' := log_common (files' := files') (by rw [h, h']; simp) (fun s s' _ e e' => by rw [h] at e; rw [h'] at e'; cases e; cases e'; exact ha) ht2 hr
  exact same_reading (R := fun D (d : LogLines.Known α × List Int) => LogLines.Holds D d.1 ∧ D.getBasisFuncCount = d.2) (fun D D' d m1 m2 => same_log m1 m2) (Run.log_comes hfit ht1 hr) (Run.log_comes hfit ht2 hr')

end

section
variable {α β : Type} [Zero α] [One α] [Add α] [Sub α] [Mul α] [Div α] [Num α] [DecidableEq β] {D : Type} [Args.Dbl D]

/-- **C154 (calc_J).** Whatever the command line, calc_J does the same with the files and with the files to which such lines have been added. -/
theorem C154_run (tos : α → β) (files files' : Str → Option Str) (hfit : ∀ name text, files name = some text → Fits text)
    (hfit' : ∀ name text, files' name = some text → Fits text) (ha : FilesAdded α files files') (args : List Str)
    (hargs : ∀ v ∈ args, v.length + 4 < 2 ^ 63) (out : Res (Params.Params × Report α)) :
    Run.Does (fun fuel => calcJRun D tos files fuel args) out ↔ Run.Does (fun fuel => calcJRun D tos files' fuel args) out := by
  have hp := fun name => (Run.C122_reading (α := α) files name).1.choose_spec
  have hl := fun name => (Run.C122_reading (α := α) files name).2.choose_spec
  have hp' := fun name => pun_common (ha.names name) (fun t t' => ha.pun name t t') (hfit' name) (hp name)
  have hl' := fun name => log_common (ha.names name) (fun t t' => ha.log name t t') (hfit' name) (hl name)
  rw [Run.C124_line tos files hfit _ hp _ hl args hargs, Run.C124_line tos files' hfit' _ hp' _ hl' args hargs]
  have e : (fun name => (files' name).isSome) = fun name => (files name).isSome := by
    funext name
    have := ha.names name
    cases h1 : files name <;> cases h2 : files' name <;> simp_all
  have key : ∀ (f f' : Str → Option Str) (pun : Str → Res (Pun.Known α)) (log : Str → Res (LogLines.Known α × List Int)),
      (fun name => (f' name).isSome) = (fun name => (f name).isSome) → Run.Line tos f pun log args out → Run.Line tos f' pun log args out := by
    intro f f' pun log e h
    cases h with
    | version h1 => exact .version h1
    | info h1 h2 => exact .info h1 h2
    | nothing h1 => exact .nothing h1
    | refused h1 => exact .refused h1
    | understood h1 h2 h3 h4 h5 h6 h7 => exact .understood h1 (by rw [e]; exact h2) h3 h4 h5 h6 h7
  exact ⟨key _ _ _ _ e, key _ _ _ _ e.symm⟩

end
end Verif.Chatter
