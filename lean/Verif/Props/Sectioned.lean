import Verif.Spec.Sectioned
import Verif.Props.Joined
/-
C157: the order of the sections of a file.
-/
namespace Verif.Sectioned
open Readers Log Strings CutOff QC Chatter Joined
open Pun (NoLine)

theorem unlines_append (a b : List Str) : unlines (a ++ b) = unlines a ++ unlines b := List.flatMap_append

section
variable {α : Type} [Mul α] [Num α]

/-! ### punch files -/

/-- What sections say before `d` is read. -/
def punAll (secs : List (List Str × Pun.Known α)) (d : Pun.Known α) : Pun.Known α := secs.foldr (fun s d => punAfter s.2 d) d

theorem pun_all {secs : List (List Str × Pun.Known α)} (h : ∀ s ∈ secs, PunFirst s.1 s.2) (rest : Str) :
    (∀ d : Pun.Known α, Pun.Says rest 0 (fun _ => none) d → Pun.Says (unlines (secs.flatMap (·.1)) ++ rest) 0 (fun _ => none) (punAll secs d)) ∧
    (∀ e, Pun.Fails α rest 0 e → Pun.Fails α (unlines (secs.flatMap (·.1)) ++ rest) 0 e) ∧
    (Pun.Endless α rest 0 → Pun.Endless α (unlines (secs.flatMap (·.1)) ++ rest) 0) := by
  induction secs with
  | nil => exact ⟨fun _ h => h, fun _ h => h, fun h => h⟩
  | cons s secs ih =>
    obtain ⟨a, b, c⟩ := ih (fun x hx => h x (List.mem_cons_of_mem _ hx))
    obtain ⟨a', b', c'⟩ := C156_pun (h s List.mem_cons_self) (unlines (secs.flatMap (·.1)) ++ rest)
    rw [List.flatMap_cons, unlines_append, List.append_assoc]
    exact ⟨fun d hd => a' _ (a d hd), fun e he => b' e (b e he), fun hh => c' (c hh)⟩

theorem punAll_perm {secs secs' : List (List Str × Pun.Known α)} (hp : secs.Perm secs') (h : secs.Pairwise (fun s s' => PunApart s.2 s'.2)) (d : Pun.Known α) :
    punAll secs d = punAll secs' d := by
  have sym : ∀ {s s' : List Str × Pun.Known α}, PunApart s.2 s'.2 → PunApart s'.2 s.2 := fun h spin => (h spin).symm
  induction hp with
  | nil => rfl
  | cons x _ ih =>
    show punAfter x.2 (punAll _ d) = punAfter x.2 (punAll _ d)
    rw [ih h.of_cons]
  | swap x y l =>
    have hxy : PunApart y.2 x.2 := List.rel_of_pairwise_cons h List.mem_cons_self
    show punAfter y.2 (punAfter x.2 (punAll l d)) = punAfter x.2 (punAfter y.2 (punAll l d))
    funext spin
    unfold punAfter
    cases hd : punAll l d spin with
    | some z => rfl
    | none => rcases hxy spin with e | e <;> rw [e] <;> simp
  | trans h1 _ ih1 ih2 => rw [ih1 h, ih2 (h.perm h1 sym)]

/-! ### log files -/

def logAll (secs : List (List Str × LogLines.Known α)) (d : LogLines.Known α) : LogLines.Known α := secs.foldr (fun s d => logAfter s.2 d) d

theorem first_line {secs : List (List Str × LogLines.Known α)} (h : ∀ s ∈ secs, LogSection s.1 s.2) {rest : Str}
    (hr : ∀ spin, ¬ LogLines.IsOcc spin (lineAt rest 0) ∧ ¬ LogLines.IsVirt spin (lineAt rest 0)) (spin : Log.Spin) :
    ¬ LogLines.IsOcc spin (lineAt (unlines (secs.flatMap (·.1)) ++ rest) 0) ∧ ¬ LogLines.IsVirt spin (lineAt (unlines (secs.flatMap (·.1)) ++ rest) 0) := by
  induction secs with
  | nil => exact hr spin
  | cons s secs ih =>
    have hs := h s List.mem_cons_self
    rw [List.flatMap_cons, unlines_append, List.append_assoc]
    cases e : s.1 with
    | nil => exact ih fun x hx => h x (List.mem_cons_of_mem _ hx)
    | cons l ls =>
      have hl : lineAt (unlines (l :: ls) ++ (unlines (secs.flatMap (·.1)) ++ rest)) 0 = l := by
        refine lineAt_get ?_
        rw [lines_unlines _ (e ▸ hs.lines)]
        rfl
      rw [hl]
      exact hs.first l (by rw [e]; rfl) spin

theorem log_all {secs : List (List Str × LogLines.Known α)} (h : ∀ s ∈ secs, LogSection s.1 s.2) {rest : Str}
    (hr : ∀ spin, ¬ LogLines.IsOcc spin (lineAt rest 0) ∧ ¬ LogLines.IsVirt spin (lineAt rest 0)) :
    (∀ d : LogLines.Known α, LogLines.Says rest 0 LogLines.nothing d → LogLines.Says (unlines (secs.flatMap (·.1)) ++ rest) 0 LogLines.nothing (logAll secs d)) ∧
    (∀ x, LogLines.Fails α rest 0 x → LogLines.Fails α (unlines (secs.flatMap (·.1)) ++ rest) 0 x) ∧
    (LogLines.Endless α rest 0 → LogLines.Endless α (unlines (secs.flatMap (·.1)) ++ rest) 0) := by
  induction secs with
  | nil => exact ⟨fun _ h => h, fun _ h => h, fun h => h⟩
  | cons s secs ih =>
    have hs := h s List.mem_cons_self
    have ht : ∀ x ∈ secs, LogSection x.1 x.2 := fun x hx => h x (List.mem_cons_of_mem _ hx)
    obtain ⟨a, b, c⟩ := ih ht
    obtain ⟨a', b', c'⟩ := C156_log (t := unlines (secs.flatMap (·.1)) ++ rest) ⟨hs.lines, hs.read, first_line ht hr⟩
    rw [List.flatMap_cons, unlines_append, List.append_assoc]
    exact ⟨fun d hd => a' _ (a d hd), fun e he => b' e (b e he), fun hh => c' (c hh)⟩

/-- The same is known, but for the order and repetition of the basis functions. -/
structure Like (d d' : LogLines.Known α) : Prop where
  coords : d'.coords = d.coords
  energies : d'.energies = d.energies
  overlap : d'.overlap = d.overlap
  functions : ∀ x, x ∈ d'.functions ↔ x ∈ d.functions

omit [Mul α] [Num α] in
theorem or_swap {γ : Type} {a b c : Option γ} (h : a = none ∨ b = none) : (c.or a).or b = (c.or b).or a := by
  rcases h with rfl | rfl <;> cases c <;> simp

theorem logAll_perm {secs secs' : List (List Str × LogLines.Known α)} (hp : secs.Perm secs') (h : secs.Pairwise (fun s s' => LogApart s.2 s'.2)) (d : LogLines.Known α) :
    Like (logAll secs d) (logAll secs' d) := by
  have sym : ∀ {s s' : List Str × LogLines.Known α}, LogApart s.2 s'.2 → LogApart s'.2 s.2 := fun h => ⟨h.1.symm, fun spin => (h.2.1 spin).symm, h.2.2.symm⟩
  induction hp with
  | nil => exact ⟨rfl, rfl, rfl, fun _ => Iff.rfl⟩
  | @cons x l1 l2 _ ih =>
    have k := ih h.of_cons
    refine ⟨?_, ?_, ?_, fun z => ?_⟩
    · show (logAll l2 d).coords.or _ = (logAll l1 d).coords.or _
      rw [k.coords]
    · show (fun spin => ((logAll l2 d).energies spin).or _) = fun spin => ((logAll l1 d).energies spin).or _
      rw [k.energies]
    · show (logAll l2 d).overlap.or _ = (logAll l1 d).overlap.or _
      rw [k.overlap]
    · show z ∈ x.2.functions ++ (logAll l2 d).functions ↔ z ∈ x.2.functions ++ (logAll l1 d).functions
      rw [List.mem_append, List.mem_append, k.functions]
  | swap x y l =>
    have hxy : LogApart y.2 x.2 := List.rel_of_pairwise_cons h List.mem_cons_self
    refine ⟨or_swap hxy.1, funext fun spin => or_swap (hxy.2.1 spin), or_swap hxy.2.2, fun z => ?_⟩
    show z ∈ x.2.functions ++ (y.2.functions ++ (logAll l d).functions) ↔ z ∈ y.2.functions ++ (x.2.functions ++ (logAll l d).functions)
    simp only [List.mem_append]
    exact or_left_comm
  | trans h1 _ ih1 ih2 =>
    have a := ih1 h
    have b := ih2 (h.perm h1 sym)
    exact ⟨b.coords.trans a.coords, b.energies.trans a.energies, b.overlap.trans a.overlap, fun x => (b.functions x).trans (a.functions x)⟩

theorem Like.counts {d d' : LogLines.Known α} (h : Like d d') {c : List Int} (hc : LogLines.Counts d.functions c) : LogLines.Counts d'.functions c := by
  obtain ⟨table, h1, h2, h3, h4⟩ := hc
  exact ⟨table, h1, h2, fun key label => (h.functions _).trans (h3 key label), h4⟩

theorem Like.matters {d d' : LogLines.Known α} (h : Like d d') (c : List Int) : matters (.ok (d', c)) = matters (.ok (d, c)) := by
  obtain ⟨h1, h2, h3, -⟩ := h
  cases d
  cases d'
  cases h1
  cases h2
  cases h3
  rfl

/-! ### the two together -/

theorem PunRearranged.same [Zero α] {t t' : Str} (h : PunRearranged α t t') (ht : Fits t) :
    (∀ d : Pun.Known α, Pun.Says t 0 (fun _ => none) d → Pun.Says t' 0 (fun _ => none) d) ∧ (∀ e, Pun.Fails α t 0 e → Pun.Fails α t' 0 e) ∧
      (Pun.Endless α t 0 → Pun.Endless α t' 0) := by
  obtain ⟨secs, secs', rest, rfl, rfl, hp, hs, hd⟩ := h
  obtain ⟨a, b, c⟩ := pun_all hs rest
  obtain ⟨a', b', c'⟩ := pun_all (secs := secs') (fun s h => hs s (hp.mem_iff.2 h)) rest
  obtain ⟨one1, one2, one3, one4⟩ := Readers.C119_one (α := α) _ ht
  rcases Readers.file_trichotomy (α := α) rest _ 0 (fun _ => none) (Nat.le_refl _) with ⟨d', h0⟩ | ⟨e, h0⟩ | h0
  · refine ⟨fun d1 h1 => ?_, fun e h1 => absurd h1 (one1 _ _ (a _ h0)), fun h1 => absurd h1 (one2 _ (a _ h0))⟩
    rw [says_once h1 (a _ h0), punAll_perm hp hd]
    exact a' _ h0
  · refine ⟨fun d1 h1 => absurd (b _ h0) (one1 _ _ h1), fun e1 h1 => ?_, fun h1 => absurd h1 (one3 _ (b _ h0))⟩
    rw [one4 _ _ h1 (b _ h0)]
    exact b' _ h0
  · exact ⟨fun d1 h1 => absurd (c h0) (one2 _ h1), fun e1 h1 => absurd (c h0) (one3 _ h1), fun _ => c' h0⟩

theorem LogRearranged.same [Zero α] {t t' : Str} (h : LogRearranged α t t') (ht : Fits t) :
    (∀ d : LogLines.Known α, LogLines.Says t 0 LogLines.nothing d → ∃ d', LogLines.Says t' 0 LogLines.nothing d' ∧ Like d d') ∧
      (∀ e, LogLines.Fails α t 0 e → LogLines.Fails α t' 0 e) ∧ (LogLines.Endless α t 0 → LogLines.Endless α t' 0) := by
  obtain ⟨secs, secs', rest, rfl, rfl, hp, hs, hd, hr⟩ := h
  obtain ⟨a, b, c⟩ := log_all hs hr
  obtain ⟨a', b', c'⟩ := log_all (secs := secs') (fun s h => hs s (hp.mem_iff.2 h)) hr
  obtain ⟨one1, one2, one3, one4⟩ := LogLines.C120_one (α := α) _ ht
  rcases LogLines.file_trichotomy (α := α) rest _ 0 LogLines.nothing (Nat.le_refl _) with ⟨d', h0⟩ | ⟨e, h0⟩ | h0
  · refine ⟨fun d1 h1 => ?_, fun e h1 => absurd h1 (one1 _ _ (a _ h0)), fun h1 => absurd h1 (one2 _ (a _ h0))⟩
    rw [log_says_once h1 (a _ h0)]
    exact ⟨_, a' _ h0, logAll_perm hp hd d'⟩
  · refine ⟨fun d1 h1 => absurd (b _ h0) (one1 _ _ h1), fun e1 h1 => ?_, fun h1 => absurd h1 (one3 _ (b _ h0))⟩
    rw [one4 _ _ h1 (b _ h0)]
    exact b' _ h0
  · exact ⟨fun d1 h1 => absurd (c h0) (one2 _ h1), fun e1 h1 => absurd (c h0) (one3 _ h1), fun _ => c' h0⟩

theorem pun_same [Zero α] {files files' : Str → Option Str} {name : Str} (names : files' name = none ↔ files name = none)
    (hj : ∀ t t', PlainName (lit ".pun") name → files name = some t → files' name = some t' → PunRearranged α t t') (hfit : ∀ text, files name = some text → Fits text)
    {r : Res (Pun.Known α)} (h : Run.PunFile files name r) : Run.PunFile files' name r := by
  have some' : ∀ t, files name = some t → ∃ t', files' name = some t' := fun t e => by
    cases e' : files' name with
    | none => rw [names.1 e'] at e; cases e
    | some t' => exact ⟨t', rfl⟩
  cases h with
  | name hp => exact .name hp
  | missing hp hf => exact .missing hp (names.2 hf)
  | read hp hf h1 =>
    obtain ⟨t', e⟩ := some' _ hf
    exact .read hp e (((hj _ _ hp hf e).same (hfit _ hf)).1 _ h1)
  | fails hp hf h1 =>
    obtain ⟨t', e⟩ := some' _ hf
    exact .fails hp e (((hj _ _ hp hf e).same (hfit _ hf)).2.1 _ h1)
  | endless hp hf h1 =>
    obtain ⟨t', e⟩ := some' _ hf
    exact .endless hp e (((hj _ _ hp hf e).same (hfit _ hf)).2.2 h1)

theorem log_same [Zero α] {files files' : Str → Option Str} {name : Str} (names : files' name = none ↔ files name = none)
    (hj : ∀ t t', PlainName (lit ".log") name → files name = some t → files' name = some t' → LogRearranged α t t') (hfit : ∀ text, files name = some text → Fits text)
    {r : Res (LogLines.Known α × List Int)} (h : Run.LogFile files name r) : ∃ r', Run.LogFile files' name r' ∧ matters r' = matters r := by
  have some' : ∀ t, files name = some t → ∃ t', files' name = some t' := fun t e => by
    cases e' : files' name with
    | none => rw [names.1 e'] at e; cases e
    | some t' => exact ⟨t', rfl⟩
  cases h with
  | name hp => exact ⟨_, .name hp, rfl⟩
  | missing hp hf => exact ⟨_, .missing hp (names.2 hf), rfl⟩
  | @read t d counts hp hf h1 hc =>
    obtain ⟨t', e⟩ := some' _ hf
    obtain ⟨d', h2, h3⟩ := ((hj _ _ hp hf e).same (hfit _ hf)).1 _ h1
    exact ⟨_, .read hp e h2 (h3.counts hc), h3.matters counts⟩
  | fails hp hf h1 =>
    obtain ⟨t', e⟩ := some' _ hf
    exact ⟨_, .fails hp e (((hj _ _ hp hf e).same (hfit _ hf)).2.1 _ h1), rfl⟩
  | endless hp hf h1 =>
    obtain ⟨t', e⟩ := some' _ hf
    exact ⟨_, .endless hp e (((hj _ _ hp hf e).same (hfit _ hf)).2.2 h1), rfl⟩

/-- **C157 (punch files).** The order of the sections of a punch file does not matter. -/
theorem C157_pun [Zero α] (files files' : Str → Option Str) (name : Str) {t t' : Str} (hfit : Fits name) (h : files name = some t) (h' : files' name = some t')
    (ht : Fits t) (ht' : Fits t') (ha : PunRearranged α t t') :
    SameReading Crlf.SamePun (fun n => (readPun files n name : Res (PunData α))) (fun n => (readPun files' n name : Res (PunData α))) := by
  have ht1 : ∀ text, files name = some text → Fits text := fun s e => by rw [h] at e; cases e; exact ht
  have ht2 : ∀ text, files' name = some text → Fits text := fun s e => by rw [h'] at e; cases e; exact ht'
  obtain ⟨r, hr⟩ := (Run.C122_reading (α := α) files name).1
  have hr' := pun_same (files' := files') (by rw [h, h']; simp) (fun s s' _ e e' => by rw [h] at e; rw [h'] at e'; cases e; cases e'; exact ha) ht1 hr
  exact same_reading (R := Readers.Matches) (fun D D' d m1 m2 => Crlf.same_pun m1 m2) (Run.pun_comes hfit ht1 hr) (Run.pun_comes hfit ht2 hr')

/-- A reader that has read all but the basis functions of `x`, and has their numbers. -/
def HoldsMost [Zero α] (D : LogData α) (x : LogLines.Known α × List Int) : Prop :=
  ∃ d, LogLines.Holds D d ∧ D.getBasisFuncCount = x.2 ∧ d.coords = x.1.coords ∧ d.energies = x.1.energies ∧ d.overlap = x.1.overlap

theorem same_most [Zero α] {D D' : LogData α} {x : LogLines.Known α × List Int} (h : HoldsMost D x) (h' : HoldsMost D' x) : Crlf.SameLog D D' := by
  obtain ⟨d, h1, h2, h3, h4, h5⟩ := h
  obtain ⟨d', h1', h2', h3', h4', h5'⟩ := h'
  have e : LogLines.Holds { D with orb := D'.orb } d' := by
    refine ⟨?_, fun spin => ?_, fun spin => ?_, ?_, h1'.orb⟩
    · rw [h3', ← h3]
      exact h1.xyz
    · rw [h4', ← h4]
      exact h1.oe spin
    · rw [h4', ← h4]
      exact h1.homo spin
    · rw [h5', ← h5]
      exact h1.S
  have k := Chatter.same_log (d := (d', D'.getBasisFuncCount)) ⟨e, rfl⟩ ⟨h1', rfl⟩
  exact ⟨k.coords, k.energies, k.homo, k.overlap, h2'.trans h2.symm⟩

theorem comes_most [Zero α] {f : Nat → Res (LogData α)} {r r' : Res (LogLines.Known α × List Int)}
    (h : Run.Comes (fun D (d : LogLines.Known α × List Int) => LogLines.Holds D d.1 ∧ D.getBasisFuncCount = d.2) f r) (hm : matters r' = matters r) :
    Run.Comes HoldsMost f r' := by
  cases r with
  | ok x =>
    cases r' with
    | ok x' =>
      obtain ⟨D, e, h1, h2⟩ := h
      obtain ⟨d, c⟩ := x
      obtain ⟨d', c'⟩ := x'
      obtain ⟨a1, a2, a3, a4⟩ := d
      obtain ⟨b1, b2, b3, b4⟩ := d'
      cases hm
      exact ⟨D, e, _, h1, h2, rfl, rfl, rfl⟩
    | _ => cases hm
  | throw e => cases r' <;> cases hm; exact h
  | exit c => cases r' <;> cases hm; exact h
  | ub => cases r' <;> cases hm; exact h
  | diverge => cases r' <;> cases hm; exact h

/-- **C157 (log files).** The same for a log file. -/
theorem C157_log [Zero α] (files files' : Str → Option Str) (name : Str) {t t' : Str} (hfit : Fits name) (h : files name = some t) (h' : files' name = some t')
    (ht : Fits t) (ht' : Fits t') (ha : LogRearranged α t t') :
    SameReading Crlf.SameLog (fun n => (readLog files n name : Res (LogData α))) (fun n => (readLog files' n name : Res (LogData α))) := by
  have ht1 : ∀ text, files name = some text → Fits text := fun s e => by rw [h] at e; cases e; exact ht
  have ht2 : ∀ text, files' name = some text → Fits text := fun s e => by rw [h'] at e; cases e; exact ht'
  obtain ⟨r, hr⟩ := (Run.C122_reading (α := α) files name).2
  obtain ⟨r', hr', hm⟩ := log_same (files' := files') (by rw [h, h']; simp) (fun s s' _ e e' => by rw [h] at e; rw [h'] at e'; cases e; cases e'; exact ha) ht1 hr
  exact same_reading (R := HoldsMost) (fun _ _ _ => same_most) (comes_most (Run.log_comes hfit ht1 hr) rfl) (comes_most (Run.log_comes hfit ht2 hr') hm.symm)

end

section
variable {α β : Type} [Zero α] [One α] [Add α] [Sub α] [Mul α] [Div α] [Num α] [DecidableEq β] {D : Type} [Args.Dbl D]

/-- **C157 (calc_J).** With the sections of any of the files in another order, calc_J does the same on every command line. -/
theorem C157_run (tos : α → β) (files files' : Str → Option Str) (hfit : ∀ name text, files name = some text → Fits text)
    (hfit' : ∀ name text, files' name = some text → Fits text) (hj : FilesRearranged α files files') (args : List Str)
    (hargs : ∀ v ∈ args, v.length + 4 < 2 ^ 63) (out : Res (Params.Params × Report α)) :
    Run.Does (fun fuel => calcJRun D tos files fuel args) out ↔ Run.Does (fun fuel => calcJRun D tos files' fuel args) out :=
  run_matters tos files files' hfit hfit' hj.names (fun name _ h => pun_same (hj.names name) (hj.pun name) (hfit name) h) (fun name _ h => log_same (hj.names name) (hj.log name) (hfit name) h) args hargs out

end
end Verif.Sectioned
