import Verif.Output
import Verif.CalcJ
import Verif.Props.Usage
/-
Lemmas about what calc_J writes.
-/
namespace Verif
open Strings Readers QC

namespace Wrote
variable {γ δ κ : Type}

theorem ext {a b : Wrote γ} (h1 : a.evs = b.evs) (h2 : a.res = b.res) : a = b := by
  cases a; cases b; simp only [mk.injEq]; exact ⟨h1, h2⟩

theorem bind_res (w : Wrote γ) (f : γ → Wrote δ) : (w >>= f).res = (w.res >>= fun a => (f a).res) := by
  show (Wrote.bind w f).res = _
  unfold Wrote.bind
  cases w.res <;> rfl

theorem bind_evs (w : Wrote γ) (f : γ → Wrote δ) :
    (w >>= f).evs = w.evs ++ (match w.res with | .ok a => (f a).evs | _ => []) := by
  show (Wrote.bind w f).evs = _
  unfold Wrote.bind
  cases w.res <;> simp

theorem bind_ok {w : Wrote γ} {a : γ} (h : w.res = .ok a) (f : γ → Wrote δ) : (w >>= f) = ⟨w.evs ++ (f a).evs, (f a).res⟩ := by
  refine ext ?_ ?_
  · rw [bind_evs, h]
  · rw [bind_res, h, Res.ok_bind]

@[simp] theorem quiet_ok (a : γ) (f : γ → Wrote δ) : (quiet (.ok a) >>= f) = f a := by
  rw [bind_ok (a := a) rfl]; rfl

@[simp] theorem pure_bind' (a : γ) (f : γ → Wrote δ) : ((pure a : Wrote γ) >>= f) = f a := quiet_ok a f

@[simp] theorem say_bind (s : Str) (f : Unit → Wrote δ) : (say s >>= f) = ⟨.text s :: (f ()).evs, (f ()).res⟩ := bind_ok rfl f

@[simp] theorem line_bind (s : Str) (f : Unit → Wrote δ) : (line s >>= f) = ⟨.text s :: .flush :: (f ()).evs, (f ()).res⟩ := bind_ok rfl f

/-- A program that has failed does nothing more. -/
theorem quiet_fail {r : Res γ} (h : ∀ a, r ≠ .ok a) (f : γ → Wrote δ) : (quiet r >>= f) = quiet (r >>= fun _ => .ub) := by
  cases r with
  | ok a => exact absurd rfl (h a)
  | _ => rfl

@[simp] theorem quiet_res (r : Res γ) : (quiet r).res = r := rfl
@[simp] theorem quiet_evs (r : Res γ) : (quiet r).evs = [] := rfl
@[simp] theorem say_res (s : Str) : (say s).res = .ok () := rfl
@[simp] theorem line_res (s : Str) : (line s).res = .ok () := rfl
@[simp] theorem pure_res (a : γ) : (pure a : Wrote γ).res = .ok a := rfl
@[simp] theorem pure_evs (a : γ) : (pure a : Wrote γ).evs = [] := rfl
@[simp] theorem say_evs (s : Str) : (say s).evs = [.text s] := rfl
@[simp] theorem line_evs (s : Str) : (line s).evs = [.text s, .flush] := rfl

end Wrote

theorem said_append (a b : List Ev) : said (a ++ b) = said a ++ said b := by
  induction a with
  | nil => rfl
  | cons e a ih => cases e <;> simp [said, ih]

theorem sure_append_flush (a : List Ev) : sure (a ++ [.flush]) = said a := by
  induction a with
  | nil => rfl
  | cons e a ih => cases e <;> simp [said, sure, ih]

/-- What is sure is the beginning of what is said. -/
theorem sure_prefix (a : List Ev) : sure a <+: said a := by
  induction a with
  | nil => exact List.prefix_rfl
  | cons e a ih =>
    cases e with
    | text s =>
      simp only [sure, said]
      split
      · exact List.prefix_append_right_inj _ |>.2 ih
      · exact List.nil_prefix
    | flush => exact ih

namespace Args
variable {D : Type} [Dbl D]

theorem parseArg_flags {fs : FS} {p q : Parser D} {t : Str} {rest : List Str} {k : Nat} (h : parseArg fs p t rest = .ok (q, k)) :
    q.flags = p.flags := by
  unfold parseArg at h
  obtain ⟨s1, e1, h⟩ := Res.bind_eq_ok.1 h
  obtain ⟨s2, e2, h⟩ := Res.bind_eq_ok.1 h
  obtain ⟨s3, e3, h⟩ := Res.bind_eq_ok.1 h
  obtain ⟨s4, e4, h⟩ := Res.bind_eq_ok.1 h
  obtain ⟨s5, e5, h⟩ := Res.bind_eq_ok.1 h
  have f1 : s1.p.flags = p.flags := by
    unfold strStage at e1
    repeat' split at e1
    all_goals first | (cases e1; rfl) | (cases e1; done) | skip
    all_goals
      obtain ⟨_, _, e1⟩ := Res.bind_eq_ok.1 e1
      cases e1; rfl
  have f2 : s2.p.flags = s1.p.flags := by
    unfold switchStage at e2
    repeat' split at e2
    all_goals first | (cases e2; rfl) | (cases e2; done) | skip
    all_goals
      obtain ⟨_, _, e2⟩ := Res.bind_eq_ok.1 e2
      first | (cases e2; rfl) | (obtain ⟨_, _, e2⟩ := Res.bind_eq_ok.1 e2; first | (cases e2; rfl) | (repeat' split at e2) <;> (cases e2; rfl))
  have f3 : s3.p.flags = s2.p.flags := by
    unfold intStage at e3
    repeat' split at e3
    all_goals first | (cases e3; rfl) | (cases e3; done) | skip
    all_goals
      obtain ⟨_, _, e3⟩ := Res.bind_eq_ok.1 e3
      first | (cases e3; rfl) | (obtain ⟨_, _, e3⟩ := Res.bind_eq_ok.1 e3; cases e3; rfl)
  have f4 : s4.p.flags = s3.p.flags := by
    unfold doubleStage at e4
    repeat' split at e4
    all_goals first | (cases e4; rfl) | (cases e4; done) | skip
    all_goals
      obtain ⟨_, _, e4⟩ := Res.bind_eq_ok.1 e4
      first | (cases e4; rfl) | (obtain ⟨_, _, e4⟩ := Res.bind_eq_ok.1 e4; cases e4; rfl)
  have f5 : s5.p.flags = s4.p.flags := by
    unfold fileStage at e5
    repeat' split at e5
    all_goals first | (cases e5; rfl) | (cases e5; done) | skip
    all_goals
      obtain ⟨_, _, e5⟩ := Res.bind_eq_ok.1 e5
      cases e5; rfl
  split at h
  · cases h
  · cases h
    rw [f5, f4, f3, f2, f1]

/-- The parser that writes parses as `parseLoop`, provided the help text ends. -/
theorem parseLoopW_res (about : About) {sizes : Nat × Nat} {flags : Map (Str × Str)} {text : Str} (hu : showUsage flags sizes = .ok text) (fs : FS)
    (size : Nat) (args : List Str) : ∀ (skip allowed : Nat) (p : Parser D), p.flags = flags →
    (parseLoopW about sizes fs size skip allowed p args).res = parseLoop fs size skip allowed p args := by
  induction args with
  | nil => intro skip allowed p _; cases skip <;> rfl
  | cons t rest ih =>
    intro skip allowed p hp
    cases skip with
    | succ skip => exact ih skip allowed p hp
    | zero =>
      have usage : (usageW about sizes p).res = .ok () := by
        unfold usageW
        rw [hp, hu]
        simp
      rw [parseLoopW, parseLoop]
      split
      · rw [Wrote.bind_res, usage, Res.ok_bind]
        split
        · rfl
        · exact ih _ _ _ hp
      · split
        · rfl
        · split
          · rw [Wrote.bind_res, Wrote.say_res, Res.ok_bind]
            split
            · rfl
            · exact ih _ _ _ hp
          · rw [Wrote.bind_res, Wrote.quiet_res]
            cases e : parseArg fs p t rest with
            | ok x => exact ih _ _ _ ((parseArg_flags (q := x.1) (k := x.2) e).trans hp)
            | _ => rfl

theorem parseW_res (about : About) {sizes : Nat × Nat} (fs : FS) {p : Parser D} {text : Str} (hu : showUsage p.flags sizes = .ok text) (args : List Str) :
    (parseW about sizes fs p args).res = parse fs p args := by
  unfold parseW parse
  split
  · rw [Wrote.bind_res]
    unfold usageW
    rw [hu]
    simp
  · rw [Wrote.bind_res, parseLoopW_res about hu fs _ args _ _ p rfl]
    simp [Wrote.bind_res]

set_option maxRecDepth 100000 in
set_option maxHeartbeats 4000000 in
theorem calcJ_flags_all : ∀ (p : Parser Unit), newParser calcJFlagSet = .ok p → (calcJ (D := D)).flags = p.flags := by
  have : (match (newParser calcJFlagSet : Res (Parser Unit)) with | .ok p => p.flags | _ => []) = (calcJ (D := D)).flags := by kernel_rfl
  intro p h
  rw [h] at this
  exact this.symm

theorem calcJ_usage : showUsage (calcJ (D := D)).flags (flagSizes calcJFlagSet) = .ok calcJHelp := by
  obtain ⟨p, text, h1, h2, -⟩ := C85_calcJ
  rw [calcJ_flags_all p h1, h2]
  unfold calcJHelp
  rw [h1]
  dsimp only
  rw [h2]

theorem calcJ_parseW (about : About) (fs : FS) (args : List Str) :
    (parseW about (flagSizes calcJFlagSet) fs (calcJ (D := D)) args).res = parse fs calcJ args := parseW_res about fs calcJ_usage args

end Args

section
variable {α β : Type} [Field α] [Num α] [DecidableEq β] {D : Type} [Args.Dbl D]

/-- What is written while the command line is parsed. -/
def parsing (D : Type) [Args.Dbl D] (about : About) (files : Str → Option Str) (args : List Str) : List Ev :=
  (Args.parseW about (Args.flagSizes Args.calcJFlagSet) (fsOf files) (Args.calcJ (D := D)) args).evs

theorem calcJWrites_eq (tos : α → β) (print : α → Str) (about : About) (files : Str → Option Str) (fuel : Nat) (args : List Str) :
    calcJWrites D tos print about files fuel args = (do
      Wrote.mk (.text (startText about.version) :: .flush :: parsing D about files args) (.ok ())
      let p ← .quiet (Args.parse (fsOf files) (Args.calcJ (D := D)) args)
      let par ← .quiet (Args.prepareParameters p)
      .say (filesText par)
      let ((prP, pr1, pr2), (lrP, lr1, lr2)) ← .quiet (readFiles files fuel par)
      let T ← .quiet (complexOf tos par prP pr1 pr2 lrP lr1 lr2)
      .line (orbitalsText par)
      let r ← .quiet (reportOf par T)
      .say (resultText print r)
      pure (par, r)) := by
  unfold calcJWrites parsing
  rw [Args.prepareParser_ok, Wrote.line_bind, Wrote.quiet_ok, Wrote.bind_ok (w := Wrote.mk _ _) rfl]
  refine Wrote.ext ?_ ?_
  · simp only [Wrote.bind_evs, Args.calcJ_parseW, Wrote.quiet_res, Wrote.quiet_evs, List.nil_append, List.cons_append]
  · simp only [Wrote.bind_res, Args.calcJ_parseW, Wrote.quiet_res]

theorem calcJWrites_res (tos : α → β) (print : α → Str) (about : About) (files : Str → Option Str) (fuel : Nat) (args : List Str) :
    (calcJWrites D tos print about files fuel args).res = calcJRun D tos files fuel args := by
  rw [calcJWrites_eq]
  unfold calcJRun
  rw [Args.prepareParser_ok]
  simp only [Wrote.bind_res, Wrote.quiet_res, Wrote.say_res, Wrote.line_res, Wrote.pure_res, Res.ok_bind, couplingReport_split, bind_assoc]

/-- The text of a run that ends normally; `info` is what is written while the command line is parsed. -/
def outputText (print : α → Str) (version info : Str) (x : Params.Params × Report α) : Str :=
  startText version ++ info ++ filesText x.1 ++ orbitalsText x.1 ++ resultText print x.2

set_option maxRecDepth 4000 in
theorem calcJOutput_eq (tos : α → β) (print : α → Str) (about : About) (files : Str → Option Str) (fuel : Nat) (args : List Str) :
    calcJOutput D tos print about files fuel args = (do
      let x ← calcJRun D tos files fuel args
      .ok (outputText print about.version (said (parsing D about files args)) x)) := by
  unfold calcJOutput
  dsimp only
  rw [calcJWrites_res]
  cases h : calcJRun D tos files fuel args with
  | ok x =>
    simp only [Res.ok_bind]
    refine congrArg Res.ok ?_
    rw [calcJWrites_eq]
    unfold calcJRun at h
    rw [Args.prepareParser_ok, Res.ok_bind] at h
    obtain ⟨p, h1, h⟩ := Res.bind_eq_ok.1 h
    obtain ⟨par, h2, h⟩ := Res.bind_eq_ok.1 h
    obtain ⟨⟨⟨prP, pr1, pr2⟩, lrP, lr1, lr2⟩, h3, h⟩ := Res.bind_eq_ok.1 h
    dsimp only at h
    rw [couplingReport_split] at h
    obtain ⟨r, h4, h⟩ := Res.bind_eq_ok.1 h
    obtain ⟨T, h4, h5⟩ := Res.bind_eq_ok.1 h4
    obtain rfl := Res.ok.inj h
    rw [h1, Wrote.bind_ok (w := Wrote.mk _ _) rfl]
    simp only [Wrote.quiet_ok, h2, h3, h4, h5, Wrote.say_bind, Wrote.line_bind, Wrote.pure_evs]
    simp [outputText, said, said_append, List.append_assoc]
  | _ => rfl

theorem parsing_plain (about : About) (files : Str → Option Str) {args : List Str} (h0 : args ≠ []) (h : ∀ t ∈ args, t ∉ Args.infoTokens) :
    parsing D about files args = [] := by
  have key : ∀ (args : List Str) (skip allowed size : Nat) (p : Args.Parser D), (∀ t ∈ args, t ∉ Args.infoTokens) →
      (Args.parseLoopW about (Args.flagSizes Args.calcJFlagSet) (fsOf files) size skip allowed p args).evs = [] := by
    intro args
    induction args with
    | nil => intro skip allowed size p _; cases skip <;> rfl
    | cons t rest ih =>
      intro skip allowed size p h
      have hr := fun skip allowed p => ih skip allowed size p (fun t ht => h t (by simp [ht]))
      cases skip with
      | succ skip => exact hr _ _ _
      | zero =>
        have ht := h t (by simp)
        simp only [Args.infoTokens, List.mem_cons, List.not_mem_nil, or_false, not_or] at ht
        rw [Args.parseLoopW, if_neg (by rintro (e | e); exacts [ht.1 e, ht.2.1 e])]
        split
        · rfl
        · rw [if_neg (by rintro (e | e); exacts [ht.2.2.1 e, ht.2.2.2 e]), Wrote.bind_evs]
          cases Args.parseArg (fsOf files) p t rest with
          | ok x => exact hr _ _ _
          | _ => rfl
  unfold parsing Args.parseW
  rw [if_neg h0, Wrote.bind_evs, key _ _ _ _ _ h]
  cases (Args.parseLoopW about (Args.flagSizes Args.calcJFlagSet) (fsOf files) (args.length + 1) 0 2 (Args.calcJ (D := D)) args).res with
  | ok q => simp only [List.nil_append, Wrote.bind_evs, Wrote.quiet_evs, Wrote.pure_evs]; split <;> rfl
  | _ => rfl

end
end Verif
