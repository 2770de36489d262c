import Verif.Props.ArgOptions
import Verif.Props.ArgLeftResult
import Verif.SetLemmas
/-
Property C91: the options of arguments as seen through the parser.
-/
namespace Verif.Args
open Strings

section
variable {S D : Type} [Dbl D]

/-- Every argument of a map stems from `new`, and the keys are sorted. -/
structure AllFrom (new : ArgObj S D) (m : Map (ArgObj S D)) : Prop where
  stems : ∀ flag a, m.get flag = some a → Reached new a
  sorted : Readers.SortedSet (m.map (·.1))

instance {new : ArgObj S D} {m : Map (ArgObj S D)} : CoeFun (AllFrom new m) (fun _ => ∀ flag a, m.get flag = some a → Reached new a) :=
  ⟨AllFrom.stems⟩

omit [Dbl D] in
theorem AllFrom.nil {new : ArgObj S D} : AllFrom new [] := ⟨(by intro flag a h; cases h), List.Pairwise.nil⟩

omit [Dbl D] in
theorem AllFrom.set {new : ArgObj S D} {m : Map (ArgObj S D)} (h : AllFrom new m) (flag : Str) {a : ArgObj S D}
    (ha : Reached new a) : AllFrom new (m.set flag a) := by
  refine ⟨?_, by rw [Map.set_keys]; exact Readers.insert_sorted h.sorted⟩
  intro f b hb
  rw [Map.get_set] at hb
  split at hb
  · cases hb; exact ha
  · exact h f b hb

omit [Dbl D] in
theorem AllFrom.old {new : ArgObj S D} {m : Map (ArgObj S D)} (h : AllFrom new m) (flag : Str) :
    Reached new ((m.get flag).getD new) := by
  cases hf : m.get flag with
  | none => exact .refl
  | some a => exact h _ _ hf

omit [Dbl D] in
theorem AllFrom.upd {new : ArgObj S D} {m m' : Map (ArgObj S D)} (h : AllFrom new m) {flag : Str}
    {f : ArgObj S D → Res (ArgObj S D)} (hf : ∀ a b, Reached new a → f a = .ok b → Reached new b)
    (e : updArg m flag new f = .ok m') : AllFrom new m' := by
  obtain ⟨a, ha, e⟩ := Res.bind_eq_ok.1 e
  cases e
  exact h.set _ (hf _ _ (h.old flag) ha)

/-- Every argument of the parser stems from the constructor of its kind. -/
structure ArgsOk (p : Parser D) : Prop where
  strs : AllFrom newArgumentString p.strArg
  switches : AllFrom newArgumentSwitch p.switchArg
  ints : AllFrom newArgumentInt p.intArg
  doubles : AllFrom newArgumentDouble p.doubleArg
  files : AllFrom newArgumentFile p.fileArg

theorem ArgsOk.congr {p q : Parser D} (h : ArgsOk p) (h1 : q.strArg = p.strArg) (h2 : q.switchArg = p.switchArg)
    (h3 : q.intArg = p.intArg) (h4 : q.doubleArg = p.doubleArg) (h5 : q.fileArg = p.fileArg) : ArgsOk q :=
  ⟨h1 ▸ h.strs, h2 ▸ h.switches, h3 ▸ h.ints, h4 ▸ h.doubles, h5 ▸ h.files⟩

theorem foldlM_inv {A B : Type} {f : B → A → Res B} {P : B → Prop} (hf : ∀ b a b', P b → f b a = .ok b' → P b') :
    ∀ {l : List A} {b b' : B}, P b → l.foldlM f b = .ok b' → P b'
  | [], b, b', h, e => by rw [List.foldlM_nil] at e; cases e; exact h
  | a :: l, b, b', h, e => by
    rw [List.foldlM_cons] at e
    obtain ⟨c, hc, e⟩ := Res.bind_eq_ok.1 e
    exact foldlM_inv hf (hf _ _ _ h hc) e

theorem argsOk_new {flags : List (List Str)} {p : Parser D} (e : newParser flags = .ok p) : ArgsOk p := by
  refine foldlM_inv (P := ArgsOk) ?_ ?_ e
  · intro b flag b' hb e
    unfold addFlag at e
    split at e
    · cases e
    · obtain ⟨⟨d, l⟩, -, e⟩ := Res.bind_eq_ok.1 e
      dsimp only at e
      split at e
      · cases e
      · cases e; exact hb.congr rfl rfl rfl rfl rfl
  · exact ⟨.nil, .nil, .nil, .nil, .nil⟩

theorem argsOk_addFlagArg {p q : Parser D} (h : ArgsOk p) {flag argname : Str} (e : addFlagArg p flag argname = .ok q) :
    ArgsOk q := by
  unfold addFlagArg at e
  split at e
  · split at e <;> cases e; exact { h with ints := h.ints.set _ .refl }
  · split at e
    · split at e <;> cases e; exact { h with switches := h.switches.set _ .refl }
    · split at e
      · split at e <;> cases e; exact { h with strs := h.strs.set _ .refl }
      · split at e
        · split at e <;> cases e; exact { h with files := h.files.set _ .refl }
        · split at e
          · split at e <;> cases e; exact { h with doubles := h.doubles.set _ .refl }
          · cases e

theorem argsOk_optInt {p q : Parser D} (h : ArgsOk p) {flag arg pr op : Str} {v : Int}
    (e : setOptInt p flag arg pr op v = .ok q) : ArgsOk q := by
  unfold setOptInt at e
  split at e
  · obtain ⟨m, hm, e⟩ := Res.bind_eq_ok.1 e
    cases e; exact { h with ints := h.ints.upd (fun a b ha hb => .setInt pr op v ha hb) hm }
  · split at e
    · obtain ⟨m, hm, e⟩ := Res.bind_eq_ok.1 e
      cases e; exact { h with strs := h.strs.upd (fun a b ha hb => .setInt pr op v ha hb) hm }
    · split at e
      · obtain ⟨m, hm, e⟩ := Res.bind_eq_ok.1 e
        cases e
        refine { h with switches := h.switches.upd (fun a b ha hb => ?_) hm }
        split at hb
        · exact .setStr pr op _ ha hb
        · split at hb
          · exact .setStr pr op _ ha hb
          · cases hb
      · split at e
        · obtain ⟨m, hm, e⟩ := Res.bind_eq_ok.1 e
          cases e; exact { h with files := h.files.upd (fun a b ha hb => .setInt pr op v ha hb) hm }
        · cases e

theorem argsOk_optDouble {p q : Parser D} (h : ArgsOk p) {flag arg pr op : Str} {v : D}
    (e : setOptDouble p flag arg pr op v = .ok q) : ArgsOk q := by
  unfold setOptDouble at e
  split at e
  · obtain ⟨m, hm, e⟩ := Res.bind_eq_ok.1 e
    cases e; exact { h with doubles := h.doubles.upd (fun a b ha hb => .setDouble pr op v ha hb) hm }
  · split at e
    · obtain ⟨m, hm, e⟩ := Res.bind_eq_ok.1 e
      cases e; exact { h with strs := h.strs.upd (fun a b ha hb => .setDouble pr op v ha hb) hm }
    · cases e

theorem argsOk_optStr {p q : Parser D} (h : ArgsOk p) {flag arg pr op v : Str}
    (e : setOptStr p flag arg pr op v = .ok q) : ArgsOk q := by
  unfold setOptStr at e
  split at e
  · obtain ⟨m, hm, e⟩ := Res.bind_eq_ok.1 e
    cases e
    refine { h with files := h.files.upd (fun a b ha hb => ?_) hm }
    split at hb
    · exact .setSet pr op _ ha hb
    · split at hb
      · exact .setVec pr op _ ha hb
      · exact .setStr pr op _ ha hb
  · split at e
    · obtain ⟨m, hm, e⟩ := Res.bind_eq_ok.1 e
      cases e
      refine { h with switches := h.switches.upd (fun a b ha hb => ?_) hm }
      split at hb
      · cases hb
      · exact .setStr pr op _ ha hb
    · split at e
      · obtain ⟨m, hm, e⟩ := Res.bind_eq_ok.1 e
        cases e; exact { h with strs := h.strs.upd (fun a b ha hb => .setSet pr op _ ha hb) hm }
      · cases e

theorem argsOk_optSet {p q : Parser D} (h : ArgsOk p) {flag arg pr op : Str} {v : List Str}
    (e : setOptSet p flag arg pr op v = .ok q) : ArgsOk q := by
  unfold setOptSet at e
  split at e
  · obtain ⟨m, hm, e⟩ := Res.bind_eq_ok.1 e
    cases e; exact { h with files := h.files.upd (fun a b ha hb => .setSet pr op v ha hb) hm }
  · split at e
    · obtain ⟨m, hm, e⟩ := Res.bind_eq_ok.1 e
      cases e; exact { h with strs := h.strs.upd (fun a b ha hb => .setSet pr op v ha hb) hm }
    · cases e

theorem argsOk_optVec {p q : Parser D} (h : ArgsOk p) {flag arg pr op : Str} {v : List Str}
    (e : setOptVec p flag arg pr op v = .ok q) : ArgsOk q := by
  unfold setOptVec at e
  split at e
  · obtain ⟨m, hm, e⟩ := Res.bind_eq_ok.1 e
    cases e; exact { h with files := h.files.upd (fun a b ha hb => .setVec pr op v ha hb) hm }
  · cases e

theorem argsOk_stages (fs : FS) (flag : Str) (rest : List Str) {s s' : ArgState D} (h : ArgsOk s.p) :
    (strStage fs flag rest s = .ok s' → ArgsOk s'.p) ∧ (switchStage fs flag rest s = .ok s' → ArgsOk s'.p) ∧
    (intStage fs flag rest s = .ok s' → ArgsOk s'.p) ∧ (doubleStage fs flag rest s = .ok s' → ArgsOk s'.p) ∧
    (fileStage fs flag rest s = .ok s' → ArgsOk s'.p) := by
  refine ⟨fun e => ?_, fun e => ?_, fun e => ?_, fun e => ?_, fun e => ?_⟩
  · unfold strStage at e
    split at e
    · cases e; exact h
    · rename_i a ha
      split at e
      · cases e
      · obtain ⟨a', hv, e⟩ := Res.bind_eq_ok.1 e
        cases e
        exact ArgsOk.mk (h.strs.set _ (.valid fs _ (h.strs _ _ ha) hv)) h.switches h.ints h.doubles h.files
  · unfold switchStage at e
    split at e
    · cases e; exact h
    · rename_i a ha
      split at e
      · split at e
        · cases e; exact h.congr rfl rfl rfl rfl rfl
        · obtain ⟨a', hv, e⟩ := Res.bind_eq_ok.1 e
          obtain ⟨b, -, e⟩ := Res.bind_eq_ok.1 e
          cases e
          exact ArgsOk.mk h.strs (h.switches.set _ (.valid fs _ (h.switches _ _ ha) hv)) h.ints h.doubles h.files
      · cases e; exact h.congr rfl rfl rfl rfl rfl
  · unfold intStage at e
    split at e
    · cases e; exact h
    · rename_i a ha
      split at e
      · cases e
      · obtain ⟨v, -, e⟩ := Res.bind_eq_ok.1 e
        obtain ⟨a', hv, e⟩ := Res.bind_eq_ok.1 e
        cases e
        exact ArgsOk.mk h.strs h.switches (h.ints.set _ (.valid fs _ (h.ints _ _ ha) hv)) h.doubles h.files
  · unfold doubleStage at e
    split at e
    · cases e; exact h
    · rename_i a ha
      split at e
      · cases e
      · obtain ⟨v, -, e⟩ := Res.bind_eq_ok.1 e
        obtain ⟨a', hv, e⟩ := Res.bind_eq_ok.1 e
        cases e
        exact ArgsOk.mk h.strs h.switches h.ints (h.doubles.set _ (.valid fs _ (h.doubles _ _ ha) hv)) h.files
  · unfold fileStage at e
    split at e
    · cases e; exact h
    · rename_i a ha
      split at e
      · cases e
      · obtain ⟨a', hv, e⟩ := Res.bind_eq_ok.1 e
        cases e
        exact ArgsOk.mk h.strs h.switches h.ints h.doubles (h.files.set _ (.valid fs _ (h.files _ _ ha) hv))

theorem argsOk_parseArg {fs : FS} {p q : Parser D} {token : Str} {rest : List Str} {n : Nat} (h : ArgsOk p)
    (e : parseArg fs p token rest = .ok (q, n)) : ArgsOk q := by
  unfold parseArg at e
  obtain ⟨s1, e1, e⟩ := Res.bind_eq_ok.1 e
  obtain ⟨s2, e2, e⟩ := Res.bind_eq_ok.1 e
  obtain ⟨s3, e3, e⟩ := Res.bind_eq_ok.1 e
  obtain ⟨s4, e4, e⟩ := Res.bind_eq_ok.1 e
  obtain ⟨s5, e5, e⟩ := Res.bind_eq_ok.1 e
  split at e
  · cases e
  · cases e
    exact (argsOk_stages fs _ rest ((argsOk_stages fs _ rest ((argsOk_stages fs _ rest ((argsOk_stages fs _ rest
      ((argsOk_stages fs _ rest (s := ⟨p, 0, true⟩) h).1 e1)).2.1 e2)).2.2.1 e3)).2.2.2.1 e4)).2.2.2.2 e5

theorem argsOk_parseLoop {fs : FS} {size : Nat} : ∀ (args : List Str) (skip allowed : Nat) {p q : Parser D}, ArgsOk p →
    parseLoop fs size skip allowed p args = .ok q → ArgsOk q
  | [], skip, allowed, p, q, h, e => by unfold parseLoop at e; cases e; exact h
  | token :: rest, skip + 1, allowed, p, q, h, e => by
    unfold parseLoop at e
    exact argsOk_parseLoop rest _ _ h e
  | token :: rest, 0, allowed, p, q, h, e => by
    unfold parseLoop at e
    split at e
    · split at e
      · cases e
      · exact argsOk_parseLoop rest _ _ h e
    · split at e
      · cases e
      · split at e
        · split at e
          · cases e
          · exact argsOk_parseLoop rest _ _ h e
        · obtain ⟨⟨p', n⟩, e1, e⟩ := Res.bind_eq_ok.1 e
          exact argsOk_parseLoop rest _ _ (argsOk_parseArg h e1) e

/-- The object is as wanted, if the call returned or threw. -/
def Kept {σ : Type} (P : σ → Prop) (x : Left σ) : Prop := Calm x.2 → P x.1

theorem Kept.ok {σ : Type} {P : σ → Prop} {s : σ} {r : Res Unit} (h : P s) : Kept P (s, r) := fun _ => h

theorem Kept.andThen {σ : Type} {P : σ → Prop} {x : Left σ} {f : σ → Left σ} (h : Kept P x) (hf : ∀ s, P s → Kept P (f s)) : Kept P (x.andThen f) := by
  unfold Left.andThen
  obtain ⟨s, r⟩ := x
  cases r with
  | ok u => exact hf _ (h (.inl ⟨u, rfl⟩))
  | _ => exact h

omit [Dbl D] in
theorem Reached.left {S : Type} {a₀ a : ArgObj S D} (h : Reached a₀ a) (fs : FS) (v : S) (hc : Calm (a.validL fs v).2) : Reached a₀ (a.validL fs v).1 := by
  rcases hc with ⟨u, hu⟩ | ⟨e, he⟩
  · refine .valid fs v h (b := (a.validL fs v).1) ?_
    rw [← ArgObj.validL_outcome]
    unfold Left.outcome
    rw [hu]; rfl
  · exact .refused fs v h (Prod.ext rfl he)

theorem argsOk_stagesL (fs : FS) (flag : Str) (rest : List Str) {s : ArgState D} (h : ArgsOk s.p) :
    Kept (fun s => ArgsOk s.p) (strStageL fs flag rest s) ∧ Kept (fun s => ArgsOk s.p) (switchStageL fs flag rest s) ∧
    Kept (fun s => ArgsOk s.p) (intStageL fs flag rest s) ∧ Kept (fun s => ArgsOk s.p) (doubleStageL fs flag rest s) ∧
    Kept (fun s => ArgsOk s.p) (fileStageL fs flag rest s) := by
  refine ⟨?_, ?_, ?_, ?_, ?_⟩
  · unfold strStageL
    split
    · exact .ok h
    · rename_i a ha
      split
      · exact .ok h
      · refine Kept.andThen (fun hc => ?_) fun s h => .ok (h.congr rfl rfl rfl rfl rfl)
        exact ArgsOk.mk (h.strs.set _ ((h.strs _ _ ha).left fs _ hc)) h.switches h.ints h.doubles h.files
  · unfold switchStageL
    split
    · exact .ok h
    · rename_i a ha
      split
      · split
        · exact .ok (h.congr rfl rfl rfl rfl rfl)
        · refine Kept.andThen (fun hc => ?_) fun s h => Kept.andThen (.ok (h.congr rfl rfl rfl rfl rfl)) fun s h => .ok (h.congr rfl rfl rfl rfl rfl)
          exact ArgsOk.mk h.strs (h.switches.set _ ((h.switches _ _ ha).left fs _ hc)) h.ints h.doubles h.files
      · exact .ok (h.congr rfl rfl rfl rfl rfl)
  · unfold intStageL
    split
    · exact .ok h
    · rename_i a ha
      split
      · exact .ok h
      · split
        · refine Kept.andThen (fun hc => ?_) fun s h => .ok (h.congr rfl rfl rfl rfl rfl)
          exact ArgsOk.mk h.strs h.switches (h.ints.set _ ((h.ints _ _ ha).left fs _ hc)) h.doubles h.files
        · exact .ok h
  · unfold doubleStageL
    split
    · exact .ok h
    · rename_i a ha
      split
      · exact .ok h
      · split
        · refine Kept.andThen (fun hc => ?_) fun s h => .ok (h.congr rfl rfl rfl rfl rfl)
          exact ArgsOk.mk h.strs h.switches h.ints (h.doubles.set _ ((h.doubles _ _ ha).left fs _ hc)) h.files
        · exact .ok h
  · unfold fileStageL
    split
    · exact .ok h
    · rename_i a ha
      split
      · exact .ok h
      · refine Kept.andThen (fun hc => ?_) fun s h => .ok (h.congr rfl rfl rfl rfl rfl)
        exact ArgsOk.mk h.strs h.switches h.ints h.doubles (h.files.set _ ((h.files _ _ ha).left fs _ hc))

theorem argsOk_parseArgL {fs : FS} {p : Parser D} {token : Str} {rest : List Str} (h : ArgsOk p) :
    Kept (fun s => ArgsOk s.p) (parseArgL fs p token rest) := by
  unfold parseArgL
  refine Kept.andThen (argsOk_stagesL fs _ rest (s := ⟨p, 0, true⟩) h).1 fun s h => ?_
  refine Kept.andThen (argsOk_stagesL fs _ rest h).2.1 fun s h => ?_
  refine Kept.andThen (argsOk_stagesL fs _ rest h).2.2.1 fun s h => ?_
  refine Kept.andThen (argsOk_stagesL fs _ rest h).2.2.2.1 fun s h => ?_
  refine Kept.andThen (argsOk_stagesL fs _ rest h).2.2.2.2 fun s h => ?_
  split
  · exact .ok h
  · exact .ok h

theorem argsOk_parseLoopL {fs : FS} {size : Nat} : ∀ (args : List Str) (skip allowed : Nat) {p : Parser D}, ArgsOk p →
    Kept ArgsOk (parseLoopL fs size skip allowed p args)
  | [], skip, allowed, p, h => by unfold parseLoopL; exact .ok h
  | token :: rest, skip + 1, allowed, p, h => by
    unfold parseLoopL
    exact argsOk_parseLoopL rest _ _ h
  | token :: rest, 0, allowed, p, h => by
    unfold parseLoopL
    split
    · split
      · exact .ok h
      · exact argsOk_parseLoopL rest _ _ h
    · split
      · exact .ok h
      · split
        · split
          · exact .ok h
          · exact argsOk_parseLoopL rest _ _ h
        · split
          · rename_i e
            exact argsOk_parseLoopL rest _ _ (argsOk_parseArgL h (.inl ⟨_, e⟩))
          · exact fun hc => argsOk_parseArgL h hc

theorem ParserReached.argsOk {p : Parser D} (h : ParserReached p) : ArgsOk p := by
  induction h with
  | new flags e => exact argsOk_new e
  | addFlagArg flag argname _ e ih => exact argsOk_addFlagArg ih e
  | defaultInt => rename_i ih; exact ih.congr rfl rfl rfl rfl rfl
  | defaultSize => rename_i ih; exact ih.congr rfl rfl rfl rfl rfl
  | defaultDouble => rename_i ih; exact ih.congr rfl rfl rfl rfl rfl
  | defaultStr => rename_i ih; exact ih.congr rfl rfl rfl rfl rfl
  | optInt flag arg pr op v _ e ih => exact argsOk_optInt ih e
  | optDouble flag arg pr op v _ e ih => exact argsOk_optDouble ih e
  | optStr flag arg pr op v _ e ih => exact argsOk_optStr ih e
  | optSet flag arg pr op v _ e ih => exact argsOk_optSet ih e
  | optVec flag arg pr op v _ e ih => exact argsOk_optVec ih e
  | parse fs args _ e ih =>
    unfold Args.parse at e
    split at e
    · cases e
    · obtain ⟨p', e1, e⟩ := Res.bind_eq_ok.1 e
      obtain ⟨_, -, e⟩ := Res.bind_eq_ok.1 e
      cases e
      exact argsOk_parseLoop _ _ _ ih e1
  | @refused p q er fs args _ e ih =>
    have k : Kept ArgsOk (parseL fs p args) := by
      unfold parseL
      split
      · exact .ok ih
      · exact Kept.andThen (argsOk_parseLoopL _ _ _ ih) fun p h => .ok h
    rw [e] at k
    exact k (.inr ⟨er, rfl⟩)
  | shareStr flag _ _ ha hb ih ih' => exact ⟨ih.strs.set flag (ih'.strs _ _ hb), ih.switches, ih.ints, ih.doubles, ih.files⟩
  | shareSwitch flag _ _ ha hb ih ih' => exact ⟨ih.strs, ih.switches.set flag (ih'.switches _ _ hb), ih.ints, ih.doubles, ih.files⟩
  | shareInt flag _ _ ha hb ih ih' => exact ⟨ih.strs, ih.switches, ih.ints.set flag (ih'.ints _ _ hb), ih.doubles, ih.files⟩
  | shareDouble flag _ _ ha hb ih ih' => exact ⟨ih.strs, ih.switches, ih.ints, ih.doubles.set flag (ih'.doubles _ _ hb), ih.files⟩
  | shareFile flag _ _ ha hb ih ih' => exact ⟨ih.strs, ih.switches, ih.ints, ih.doubles, ih.files.set flag (ih'.files _ _ hb)⟩

/-- The value found in one map. -/
def inMap {S : Type} (m : Map (ArgObj S D)) (flag pr op : Str) : Res Str :=
  ((m.get flag).map (fun a => a.propertyValue pr op)).getD (.throw .invalidArgument)

theorem filter_name {S : Type} {new : ArgObj S D} {table : List (Str × Str × OptType)} (h0 : NewArg new table)
    {m : Map (ArgObj S D)} (hm : AllFrom new m) (flag arg : Str) :
    (m.get flag).filter (fun a => a.name = arg) = if new.name = arg then m.get flag else none := by
  cases hf : m.get flag with
  | none => simp
  | some a =>
    have := (C89_properties h0 (hm _ _ hf)).2.2
    simp [Option.filter, this]

/-- `getFlagArgOptValue` looks into the map of the argument's kind only, and not at all for double arguments. -/
def lookup (p : Parser D) (flag arg pr op : Str) : Res Str :=
  if arg = (lit "ARGUMENT_STRING") then inMap p.strArg flag pr op
  else if arg = (lit "ARGUMENT_SWITCH") then inMap p.switchArg flag pr op
  else if arg = (lit "ARGUMENT_FILE") then inMap p.fileArg flag pr op
  else if arg = (lit "ARGUMENT_INT") then inMap p.intArg flag pr op
  else .throw .invalidArgument

theorem getFlagArgOptValue_eq {p : Parser D} (h : ArgsOk p) (flag arg pr op : Str) :
    getFlagArgOptValue p flag arg pr op = lookup p flag arg pr op := by
  unfold getFlagArgOptValue lookup
  rw [filter_name .string h.strs, filter_name .switch h.switches, filter_name .file h.files, filter_name .int h.ints]
  have n1 : (newArgumentString (D := D)).name = (lit "ARGUMENT_STRING") := rfl
  have n2 : (newArgumentSwitch (D := D)).name = (lit "ARGUMENT_SWITCH") := rfl
  have n3 : (newArgumentFile (D := D)).name = (lit "ARGUMENT_FILE") := rfl
  have n4 : (newArgumentInt (D := D)).name = (lit "ARGUMENT_INT") := rfl
  rw [n1, n2, n3, n4]
  by_cases a1 : arg = (lit "ARGUMENT_STRING")
  · subst a1
    rw [if_pos rfl, if_neg (by decide), if_neg (by decide), if_neg (by decide), if_pos rfl]
    unfold inMap
    cases p.strArg.get flag <;> rfl
  · rw [if_neg (Ne.symm a1), if_neg a1]
    by_cases a2 : arg = (lit "ARGUMENT_SWITCH")
    · subst a2
      rw [if_pos rfl, if_neg (by decide), if_neg (by decide), if_pos rfl]
      unfold inMap
      cases p.switchArg.get flag <;> rfl
    · rw [if_neg (Ne.symm a2), if_neg a2]
      by_cases a3 : arg = (lit "ARGUMENT_FILE")
      · subst a3
        rw [if_pos rfl, if_neg (by decide), if_pos rfl]
        unfold inMap
        cases p.fileArg.get flag <;> rfl
      · rw [if_neg (Ne.symm a3), if_neg a3]
        by_cases a4 : arg = (lit "ARGUMENT_INT")
        · subst a4
          rw [if_pos rfl, if_pos rfl]
          unfold inMap
          cases p.intArg.get flag <;> rfl
        · rw [if_neg (Ne.symm a4), if_neg a4]

/-- What an update of one map does. -/
structure MapWritten {S : Type} (m m' : Map (ArgObj S D)) (flag property option : Str) (text : Str → Prop) : Prop where
  read : ∃ t, text t ∧ inMap m' flag property option = .ok t
  same : ∀ pr op t, (pr, op) ≠ (property, option) → inMap m flag pr op = .ok t → inMap m' flag pr op = .ok t
  others : ∀ flag' pr op, flag' ≠ flag → inMap m' flag' pr op = inMap m flag' pr op

theorem upd_written {S : Type} {new : ArgObj S D} {m : Map (ArgObj S D)} (hm : AllFrom new m) (flag pr op : Str)
    {f : ArgObj S D → Res (ArgObj S D)} {text : Str → Prop}
    (hf : ∀ a, Reached new a → ∃ b, f a = .ok b ∧ Written a b pr op text) :
    ∃ m', updArg m flag new f = .ok m' ∧ MapWritten m m' flag pr op text := by
  obtain ⟨b, e, ⟨t, ht, hb⟩, hs⟩ := hf _ (hm.old flag)
  refine ⟨m.set flag b, by unfold updArg; rw [e]; rfl, ⟨t, ht, ?_⟩, ?_, ?_⟩
  · unfold inMap; rw [Map.get_set_self]; exact hb
  · intro pr' op' t' hne hold
    unfold inMap at hold ⊢
    rw [Map.get_set_self]
    show b.propertyValue pr' op' = _
    rw [hs _ _ hne]
    cases hg : m.get flag with
    | none => rw [hg] at hold; cases hold
    | some a => rw [hg] at hold; exact hold
  · intro f' pr' op' hne
    unfold inMap; rw [Map.get_set_ne _ hne]

theorem upd_throw {S : Type} {new : ArgObj S D} {m : Map (ArgObj S D)} (hm : AllFrom new m) (flag : Str)
    {f : ArgObj S D → Res (ArgObj S D)} (hf : ∀ a, Reached new a → f a = .throw .invalidArgument) :
    updArg m flag new f = .throw .invalidArgument := by
  unfold updArg; rw [hf _ (hm.old flag)]; rfl

theorem written_int {p : Parser D} (h : ArgsOk p) {m : Map (ArgObj Int D)} (hq : ArgsOk { p with intArg := m })
    {flag pr op : Str} {text : Str → Prop} (w : MapWritten p.intArg m flag pr op text) :
    OptWritten p { p with intArg := m } flag (lit "ARGUMENT_INT") pr op text := by
  constructor
  · simp only [getFlagArgOptValue_eq hq]; exact w.read
  · simp only [getFlagArgOptValue_eq hq, getFlagArgOptValue_eq h]; exact w.same
  · intro f' a' pr' op' hne
    simp only [getFlagArgOptValue_eq hq, getFlagArgOptValue_eq h]
    unfold lookup
    dsimp only
    by_cases ha : a' = (lit "ARGUMENT_INT")
    · rw [w.others f' pr' op' (by rintro rfl; exact hne (by rw [ha]))]
    · rw [if_neg ha, if_neg ha]

theorem written_file {p : Parser D} (h : ArgsOk p) {m : Map (ArgObj Str D)} (hq : ArgsOk { p with fileArg := m })
    {flag pr op : Str} {text : Str → Prop} (w : MapWritten p.fileArg m flag pr op text) :
    OptWritten p { p with fileArg := m } flag (lit "ARGUMENT_FILE") pr op text := by
  constructor
  · simp only [getFlagArgOptValue_eq hq]; exact w.read
  · simp only [getFlagArgOptValue_eq hq, getFlagArgOptValue_eq h]; exact w.same
  · intro f' a' pr' op' hne
    simp only [getFlagArgOptValue_eq hq, getFlagArgOptValue_eq h]
    unfold lookup
    dsimp only
    by_cases ha : a' = (lit "ARGUMENT_FILE")
    · rw [w.others f' pr' op' (by rintro rfl; exact hne (by rw [ha]))]
    · rw [if_neg ha, if_neg ha]

theorem written_switch {p : Parser D} (h : ArgsOk p) {m : Map (ArgObj Str D)} (hq : ArgsOk { p with switchArg := m })
    {flag pr op : Str} {text : Str → Prop} (w : MapWritten p.switchArg m flag pr op text) :
    OptWritten p { p with switchArg := m } flag (lit "ARGUMENT_SWITCH") pr op text := by
  constructor
  · simp only [getFlagArgOptValue_eq hq]; exact w.read
  · simp only [getFlagArgOptValue_eq hq, getFlagArgOptValue_eq h]; exact w.same
  · intro f' a' pr' op' hne
    simp only [getFlagArgOptValue_eq hq, getFlagArgOptValue_eq h]
    unfold lookup
    dsimp only
    by_cases ha : a' = (lit "ARGUMENT_SWITCH")
    · rw [w.others f' pr' op' (by rintro rfl; exact hne (by rw [ha]))]
    · rw [if_neg ha, if_neg ha]

theorem written_str {p : Parser D} (h : ArgsOk p) {m : Map (ArgObj Str D)} (hq : ArgsOk { p with strArg := m })
    {flag pr op : Str} {text : Str → Prop} (w : MapWritten p.strArg m flag pr op text) :
    OptWritten p { p with strArg := m } flag (lit "ARGUMENT_STRING") pr op text := by
  constructor
  · simp only [getFlagArgOptValue_eq hq]; exact w.read
  · simp only [getFlagArgOptValue_eq hq, getFlagArgOptValue_eq h]; exact w.same
  · intro f' a' pr' op' hne
    simp only [getFlagArgOptValue_eq hq, getFlagArgOptValue_eq h]
    unfold lookup
    dsimp only
    by_cases ha : a' = (lit "ARGUMENT_STRING")
    · rw [w.others f' pr' op' (by rintro rfl; exact hne (by rw [ha]))]
    · rw [if_neg ha, if_neg ha]

/-! ### C91 -/

/-- C91 (partial; integers): `setFlagArgOpt(flag, argument, property, option, int)` succeeds exactly for the integer options of the
argument (creating the argument if the flag has none of that kind) and, with 0 and 1, for switches; what was set is read back by
`getFlagArgOptValue` and nothing else changes. Everything else is refused with `invalid_argument`. Missing from the full property:
double arguments (`C91_refuted_double`). -/
theorem C91_int_partial {p : Parser D} (h : ParserReached p) (flag pr op : Str) (v : Int) :
    (if (pr, op, .int) ∈ intTable then
        ∃ q, setOptInt p flag (lit "ARGUMENT_INT") pr op v = .ok q ∧ OptWritten p q flag (lit "ARGUMENT_INT") pr op (· = intToStr v)
      else setOptInt p flag (lit "ARGUMENT_INT") pr op v = .throw .invalidArgument) ∧
    (if (pr, op, .int) ∈ fileTable then
        ∃ q, setOptInt p flag (lit "ARGUMENT_FILE") pr op v = .ok q ∧ OptWritten p q flag (lit "ARGUMENT_FILE") pr op (· = intToStr v)
      else setOptInt p flag (lit "ARGUMENT_FILE") pr op v = .throw .invalidArgument) ∧
    (if (pr, op, .str) ∈ switchTable ∧ (v = 0 ∨ v = 1) then
        ∃ q, setOptInt p flag (lit "ARGUMENT_SWITCH") pr op v = .ok q ∧
          OptWritten p q flag (lit "ARGUMENT_SWITCH") pr op (· = if v = 0 then (lit "OFF") else (lit "ON"))
      else setOptInt p flag (lit "ARGUMENT_SWITCH") pr op v = .throw .invalidArgument) ∧
    ∀ arg, arg ≠ (lit "ARGUMENT_INT") → arg ≠ (lit "ARGUMENT_FILE") → arg ≠ (lit "ARGUMENT_SWITCH") →
      setOptInt p flag arg pr op v = .throw .invalidArgument := by
  have hp := h.argsOk
  refine ⟨?_, ?_, ?_, ?_⟩
  · split
    · rename_i hr
      obtain ⟨m, e, w⟩ := upd_written hp.ints flag pr op (f := (·.setInt pr op v)) (text := (· = intToStr v))
        (fun a ha => by have := (C90_write .int ha pr op).1 v; rwa [if_pos hr] at this)
      have e' : setOptInt p flag (lit "ARGUMENT_INT") pr op v = .ok { p with intArg := m } := by
        unfold setOptInt; rw [if_pos rfl, e]; rfl
      exact ⟨_, e', written_int hp (argsOk_optInt hp e') w⟩
    · rename_i hr
      unfold setOptInt
      rw [if_pos rfl, upd_throw hp.ints flag (fun a ha => by
        have := (C90_write .int ha pr op).1 v; rwa [if_neg hr] at this)]; rfl
  · split
    · rename_i hr
      obtain ⟨m, e, w⟩ := upd_written hp.files flag pr op (f := (·.setInt pr op v)) (text := (· = intToStr v))
        (fun a ha => by have := (C90_write .file ha pr op).1 v; rwa [if_pos hr] at this)
      have e' : setOptInt p flag (lit "ARGUMENT_FILE") pr op v = .ok { p with fileArg := m } := by
        unfold setOptInt; rw [if_neg (by decide), if_neg (by decide), if_neg (by decide), if_pos rfl, e]; rfl
      exact ⟨_, e', written_file hp (argsOk_optInt hp e') w⟩
    · rename_i hr
      unfold setOptInt
      rw [if_neg (by decide), if_neg (by decide), if_neg (by decide), if_pos rfl, upd_throw hp.files flag (fun a ha => by
        have := (C90_write .file ha pr op).1 v; rwa [if_neg hr] at this)]; rfl
  · split
    · rename_i hr
      obtain ⟨m, e, w⟩ := upd_written hp.switches flag pr op (f := fun a =>
          if v = 0 then a.setStr pr op (lit "OFF") else if v = 1 then a.setStr pr op (lit "ON") else .throw .invalidArgument)
        (text := (· = if v = 0 then (lit "OFF") else (lit "ON")))
        (fun a ha => by
          rcases hr.2 with hv | hv
          · simp only [hv, if_true]; exact (C90_write_text .switch ha pr op _).1 hr.1
          · subst hv
            have h10 : (1 : Int) ≠ 0 := by decide
            simp only [h10, if_false, if_true]; exact (C90_write_text .switch ha pr op _).1 hr.1)
      have e' : setOptInt p flag (lit "ARGUMENT_SWITCH") pr op v = .ok { p with switchArg := m } := by
        unfold setOptInt; rw [if_neg (by decide), if_neg (by decide), if_pos rfl, e]; rfl
      exact ⟨_, e', written_switch hp (argsOk_optInt hp e') w⟩
    · rename_i hr
      unfold setOptInt
      rw [if_neg (by decide), if_neg (by decide), if_pos rfl, upd_throw hp.switches flag (fun a ha => by
        by_cases h0 : v = 0
        · rw [if_pos h0]
          refine (C90_write_text .switch ha pr op _).2.2 (fun hm => hr ⟨hm, .inl h0⟩) ?_ ?_ <;> simp
        · rw [if_neg h0]
          by_cases h1 : v = 1
          · rw [if_pos h1]
            refine (C90_write_text .switch ha pr op _).2.2 (fun hm => hr ⟨hm, .inr h1⟩) ?_ ?_ <;> simp
          · rw [if_neg h1])]; rfl
  · intro arg a1 a2 a3
    unfold setOptInt
    rw [if_neg a1]
    by_cases a4 : arg = (lit "ARGUMENT_STRING")
    · rw [if_pos a4, upd_throw hp.strs flag (fun a ha => by
        have := (C90_write .string ha pr op).1 v
        rwa [if_neg (by simp)] at this)]; rfl
    · rw [if_neg a4, if_neg a3, if_neg a2]

theorem shows_one {v t : Str} (h : Shows [v] t) : Bare v t := by
  have hc : ∀ {s t : Str}, Bare s t → t = trimmed s := by
    rintro s t ⟨l, r, e, h1, h2, h3, h4⟩
    rw [e]
    refine (C45_trim_unique h1 h2 ?_).symm
    cases ht : t with
    | nil => exact .inl rfl
    | cons c u =>
      refine .inr ⟨⟨c, u, rfl, h3 c (by rw [ht]; rfl)⟩, (c :: u).dropLast, (c :: u).getLast (by simp), ?_, ?_⟩
      · rw [List.dropLast_append_getLast]
      · exact h4 _ (by rw [ht, List.getLast?_eq_some_getLast (by simp)]; rfl)
  obtain ⟨l, r, e, h1, h2, h3⟩ := C45_trim v
  have e1 := hc h
  have e2 : trimmed ([v].flatMap (fun v => v ++ [' '])) = trimmed v := by
    have := C45_trim_unique (l := l) (r := r ++ [' ']) (m := trimmed v) h1 (by
      intro c hc
      rcases List.mem_append.1 hc with hc | hc
      · exact h2 c hc
      · rw [List.mem_singleton.1 hc]; rfl) h3
    rw [← this]
    congr 1
    rw [← List.append_assoc, ← e]
    simp
  rw [e1, e2]
  refine ⟨l, r, e, h1, h2, ?_⟩
  rcases h3 with h3 | ⟨⟨c, t, h3, hc⟩, t', c', h4, hc'⟩
  · rw [h3]; simp
  · constructor
    · rw [h3]; simpa using hc
    · rw [h4]; simpa using hc'

theorem Written.mono {S : Type} {a b : ArgObj S D} {pr op : Str} {text text' : Str → Prop} (h : Written a b pr op text)
    (ht : ∀ t, text t → text' t) : Written a b pr op text' := by
  obtain ⟨⟨t, h1, h2⟩, h3⟩ := h
  exact ⟨⟨t, ht t h1, h2⟩, h3⟩

/-- C91 (partial; one text): `setFlagArgOpt(flag, argument, property, option, string)` succeeds exactly for the options of a file or
text argument that hold texts, which then hold just this one, and for switches with `ON` and `OFF`. -/
theorem C91_text_partial {p : Parser D} (h : ParserReached p) (flag pr op v : Str) :
    (if (pr, op, .set) ∈ fileTable ∨ (pr, op, .vec) ∈ fileTable then
        ∃ q, setOptStr p flag (lit "ARGUMENT_FILE") pr op v = .ok q ∧ OptWritten p q flag (lit "ARGUMENT_FILE") pr op (Bare v)
      else setOptStr p flag (lit "ARGUMENT_FILE") pr op v = .throw .invalidArgument) ∧
    (if (pr, op, .set) ∈ stringTable then
        ∃ q, setOptStr p flag (lit "ARGUMENT_STRING") pr op v = .ok q ∧ OptWritten p q flag (lit "ARGUMENT_STRING") pr op (Bare v)
      else setOptStr p flag (lit "ARGUMENT_STRING") pr op v = .throw .invalidArgument) ∧
    (if (pr, op, .str) ∈ switchTable ∧ (v = (lit "ON") ∨ v = (lit "OFF")) then
        ∃ q, setOptStr p flag (lit "ARGUMENT_SWITCH") pr op v = .ok q ∧ OptWritten p q flag (lit "ARGUMENT_SWITCH") pr op (· = v)
      else setOptStr p flag (lit "ARGUMENT_SWITCH") pr op v = .throw .invalidArgument) ∧
    ∀ arg, arg ≠ (lit "ARGUMENT_FILE") → arg ≠ (lit "ARGUMENT_STRING") → arg ≠ (lit "ARGUMENT_SWITCH") →
      setOptStr p flag arg pr op v = .throw .invalidArgument := by
  have hp := h.argsOk
  refine ⟨?_, ?_, ?_, ?_⟩
  · have hfile : ∀ a : ArgObj Str D, Reached newArgumentFile a → if (pr, op, .set) ∈ fileTable ∨ (pr, op, .vec) ∈ fileTable then
        ∃ b, (if pr = (lit "PROPERTY_FILE_EXT") then a.setSet pr op [v]
          else if pr = (lit "PROPERTY_SISTER_FILE_EXT") ∧ (p.fileArg.get flag).isNone = true then a.setVec pr op [v]
          else a.setStr pr op v) = .ok b ∧ Written a b pr op (Bare v)
        else (if pr = (lit "PROPERTY_FILE_EXT") then a.setSet pr op [v]
          else if pr = (lit "PROPERTY_SISTER_FILE_EXT") ∧ (p.fileArg.get flag).isNone = true then a.setVec pr op [v]
          else a.setStr pr op v) = .throw .invalidArgument := by
      intro a ha
      obtain ⟨t1, t2, t3⟩ := C90_write_text .file ha pr op v
      obtain ⟨-, -, s1, s2⟩ := C90_write .file ha pr op
      by_cases hpr : pr = (lit "PROPERTY_FILE_EXT")
      · subst hpr
        rw [if_pos rfl]
        have hv : ((lit "PROPERTY_FILE_EXT"), op, OptType.vec) ∉ fileTable := by simp
        have := s1 [v]
        split
        · rename_i hr
          rw [if_pos (hr.resolve_right hv)] at this
          obtain ⟨b, e, w⟩ := this
          exact ⟨b, e, w.mono (fun t => shows_one)⟩
        · rename_i hr
          rwa [if_neg (fun h => hr (.inl h))] at this
      · rw [if_neg hpr]
        by_cases hsis : pr = (lit "PROPERTY_SISTER_FILE_EXT")
        · subst hsis
          have hn1 : ((lit "PROPERTY_SISTER_FILE_EXT"), op, OptType.set) ∉ fileTable := by simp
          have hn2 : ((lit "PROPERTY_SISTER_FILE_EXT"), op, OptType.vec) ∉ fileTable := by simp
          have hn3 : ((lit "PROPERTY_SISTER_FILE_EXT"), op, OptType.str) ∉ fileTable := by simp
          rw [if_neg (by rintro (h | h); exact hn1 h; exact hn2 h)]
          have := s2 [v]
          rw [if_neg hn2] at this
          split
          · exact this
          · exact t3 hn3 hn1 hn2
        · have hsis' : ¬ (pr = (lit "PROPERTY_SISTER_FILE_EXT") ∧ (p.fileArg.get flag).isNone = true) := fun h => hsis h.1
          simp only [if_neg hsis']
          split
          · rename_i hr; exact t2 hr
          · rename_i hr
            exact t3 (by simp) (fun h => hr (.inl h)) (fun h => hr (.inr h))
    split
    · rename_i hr
      simp only [if_pos hr] at hfile
      obtain ⟨m, e, w⟩ := upd_written hp.files flag pr op hfile
      have e' : setOptStr p flag (lit "ARGUMENT_FILE") pr op v = .ok { p with fileArg := m } := by
        unfold setOptStr; rw [if_pos rfl, e]; rfl
      exact ⟨_, e', written_file hp (argsOk_optStr hp e') w⟩
    · rename_i hr
      simp only [if_neg hr] at hfile
      unfold setOptStr
      rw [if_pos rfl, upd_throw hp.files flag hfile]; rfl
  · split
    · rename_i hr
      obtain ⟨m, e, w⟩ := upd_written hp.strs flag pr op (f := (·.setSet pr op [v])) (text := Bare v) (fun a ha => by
        have := (C90_write .string ha pr op).2.2.1 [v]
        rw [if_pos hr] at this
        obtain ⟨b, e, w⟩ := this
        exact ⟨b, e, w.mono (fun t => shows_one)⟩)
      have e' : setOptStr p flag (lit "ARGUMENT_STRING") pr op v = .ok { p with strArg := m } := by
        unfold setOptStr; rw [if_neg (by decide), if_neg (by decide), if_pos rfl, e]; rfl
      exact ⟨_, e', written_str hp (argsOk_optStr hp e') w⟩
    · rename_i hr
      unfold setOptStr
      rw [if_neg (by decide), if_neg (by decide), if_pos rfl, upd_throw hp.strs flag (fun a ha => by
        have := (C90_write .string ha pr op).2.2.1 [v]; rwa [if_neg hr] at this)]; rfl
  · split
    · rename_i hr
      have hv : ¬ (v ≠ (lit "OFF") ∧ v ≠ (lit "ON")) := by
        rintro ⟨h1, h2⟩; rcases hr.2 with h | h
        · exact h2 h
        · exact h1 h
      obtain ⟨m, e, w⟩ := upd_written hp.switches flag pr op (f := fun a =>
          if v ≠ (lit "OFF") ∧ v ≠ (lit "ON") then .throw .invalidArgument else a.setStr pr op v) (text := (· = v))
        (fun a ha => by rw [if_neg hv]; exact (C90_write_text .switch ha pr op v).1 hr.1)
      have e' : setOptStr p flag (lit "ARGUMENT_SWITCH") pr op v = .ok { p with switchArg := m } := by
        unfold setOptStr; rw [if_neg (by decide), if_pos rfl, e]; rfl
      exact ⟨_, e', written_switch hp (argsOk_optStr hp e') w⟩
    · rename_i hr
      unfold setOptStr
      rw [if_neg (by decide), if_pos rfl, upd_throw hp.switches flag (fun a ha => by
        by_cases hv : v ≠ (lit "OFF") ∧ v ≠ (lit "ON")
        · rw [if_pos hv]
        · rw [if_neg hv]
          refine (C90_write_text .switch ha pr op v).2.2 (fun hm => hr ⟨hm, ?_⟩) (by simp) (by simp)
          by_cases h1 : v = (lit "ON")
          · exact .inl h1
          · exact .inr (by by_contra h2; exact hv ⟨h2, h1⟩))]; rfl
  · intro arg a1 a2 a3
    unfold setOptStr
    rw [if_neg a1, if_neg a3, if_neg a2]

/-- C91 (partial; several texts): the overloads for sets and vectors of texts. -/
theorem C91_texts_partial {p : Parser D} (h : ParserReached p) (flag pr op : Str) (vs : List Str) :
    (if (pr, op, .set) ∈ fileTable then
        ∃ q, setOptSet p flag (lit "ARGUMENT_FILE") pr op vs = .ok q ∧ OptWritten p q flag (lit "ARGUMENT_FILE") pr op (Shows vs)
      else setOptSet p flag (lit "ARGUMENT_FILE") pr op vs = .throw .invalidArgument) ∧
    (if (pr, op, .set) ∈ stringTable then
        ∃ q, setOptSet p flag (lit "ARGUMENT_STRING") pr op vs = .ok q ∧ OptWritten p q flag (lit "ARGUMENT_STRING") pr op (Shows vs)
      else setOptSet p flag (lit "ARGUMENT_STRING") pr op vs = .throw .invalidArgument) ∧
    (if (pr, op, .vec) ∈ fileTable then
        ∃ q, setOptVec p flag (lit "ARGUMENT_FILE") pr op vs = .ok q ∧ OptWritten p q flag (lit "ARGUMENT_FILE") pr op (Shows vs)
      else setOptVec p flag (lit "ARGUMENT_FILE") pr op vs = .throw .invalidArgument) ∧
    (∀ arg, arg ≠ (lit "ARGUMENT_FILE") → arg ≠ (lit "ARGUMENT_STRING") → setOptSet p flag arg pr op vs = .throw .invalidArgument) ∧
    ∀ arg, arg ≠ (lit "ARGUMENT_FILE") → setOptVec p flag arg pr op vs = .throw .invalidArgument := by
  have hp := h.argsOk
  refine ⟨?_, ?_, ?_, ?_, ?_⟩
  · split
    · rename_i hr
      obtain ⟨m, e, w⟩ := upd_written hp.files flag pr op (f := (·.setSet pr op vs)) (text := Shows vs) (fun a ha => by
        have := (C90_write .file ha pr op).2.2.1 vs; rwa [if_pos hr] at this)
      have e' : setOptSet p flag (lit "ARGUMENT_FILE") pr op vs = .ok { p with fileArg := m } := by
        unfold setOptSet; rw [if_pos rfl, e]; rfl
      exact ⟨_, e', written_file hp (argsOk_optSet hp e') w⟩
    · rename_i hr
      unfold setOptSet
      rw [if_pos rfl, upd_throw hp.files flag (fun a ha => by
        have := (C90_write .file ha pr op).2.2.1 vs; rwa [if_neg hr] at this)]; rfl
  · split
    · rename_i hr
      obtain ⟨m, e, w⟩ := upd_written hp.strs flag pr op (f := (·.setSet pr op vs)) (text := Shows vs) (fun a ha => by
        have := (C90_write .string ha pr op).2.2.1 vs; rwa [if_pos hr] at this)
      have e' : setOptSet p flag (lit "ARGUMENT_STRING") pr op vs = .ok { p with strArg := m } := by
        unfold setOptSet; rw [if_neg (by decide), if_pos rfl, e]; rfl
      exact ⟨_, e', written_str hp (argsOk_optSet hp e') w⟩
    · rename_i hr
      unfold setOptSet
      rw [if_neg (by decide), if_pos rfl, upd_throw hp.strs flag (fun a ha => by
        have := (C90_write .string ha pr op).2.2.1 vs; rwa [if_neg hr] at this)]; rfl
  · split
    · rename_i hr
      obtain ⟨m, e, w⟩ := upd_written hp.files flag pr op (f := (·.setVec pr op vs)) (text := Shows vs) (fun a ha => by
        have := (C90_write .file ha pr op).2.2.2 vs; rwa [if_pos hr] at this)
      have e' : setOptVec p flag (lit "ARGUMENT_FILE") pr op vs = .ok { p with fileArg := m } := by
        unfold setOptVec; rw [if_pos rfl, e]; rfl
      exact ⟨_, e', written_file hp (argsOk_optVec hp e') w⟩
    · rename_i hr
      unfold setOptVec
      rw [if_pos rfl, upd_throw hp.files flag (fun a ha => by
        have := (C90_write .file ha pr op).2.2.2 vs; rwa [if_neg hr] at this)]; rfl
  · intro arg a1 a2
    unfold setOptSet
    rw [if_neg a1, if_neg a2]
  · intro arg a1
    unfold setOptVec
    rw [if_neg a1]

/-- C91 (refuted, double arguments): the bounds of a double argument can be set, but `getFlagArgOptValue` refuses to read any option
of a double argument, whatever the parser's history. -/
theorem C91_refuted_double {p : Parser D} (h : ParserReached p) (flag : Str) (v : D) :
    (∃ q, setOptDouble p flag (lit "ARGUMENT_DOUBLE") (lit "PROPERTY_DOUBLE") (lit "MAX") v = .ok q ∧ ParserReached q) ∧
    ∀ pr op, getFlagArgOptValue p flag (lit "ARGUMENT_DOUBLE") pr op = .throw .invalidArgument := by
  have hp := h.argsOk
  constructor
  · obtain ⟨m, e, -⟩ := upd_written hp.doubles flag (lit "PROPERTY_DOUBLE") (lit "MAX")
      (f := (·.setDouble (lit "PROPERTY_DOUBLE") (lit "MAX") v)) (text := (· = Dbl.toStr v)) (fun a ha => by
        have := (C90_write .double ha (lit "PROPERTY_DOUBLE") (lit "MAX")).2.1 v
        rwa [if_pos (by decide)] at this)
    have e' : setOptDouble p flag (lit "ARGUMENT_DOUBLE") (lit "PROPERTY_DOUBLE") (lit "MAX") v = .ok { p with doubleArg := m } := by
      unfold setOptDouble; rw [if_pos rfl, e]; rfl
    exact ⟨_, e', .optDouble _ _ _ _ _ h e'⟩
  · intro pr op
    rw [getFlagArgOptValue_eq hp]
    unfold lookup
    rw [if_neg (by decide), if_neg (by decide), if_neg (by decide), if_neg (by decide)]

/-- C91 (double arguments, exactly): `setFlagArgOpt(flag, argument, property, option, double)` succeeds exactly for the options MIN and MAX
of a double argument, and then no answer of `getFlagArgOptValue` changes; everything else is refused with `invalid_argument`. (What it changes
is which values are accepted: C106.) -/
theorem C91_double {p : Parser D} (h : ParserReached p) (flag pr op : Str) (v : D) :
    (if pr = (lit "PROPERTY_DOUBLE") ∧ (op = (lit "MIN") ∨ op = (lit "MAX")) then
        ∃ q, setOptDouble p flag (lit "ARGUMENT_DOUBLE") pr op v = .ok q ∧ ParserReached q ∧
          ∀ flag' arg pr' op', getFlagArgOptValue q flag' arg pr' op' = getFlagArgOptValue p flag' arg pr' op'
      else setOptDouble p flag (lit "ARGUMENT_DOUBLE") pr op v = .throw .invalidArgument) ∧
    ∀ arg, arg ≠ (lit "ARGUMENT_DOUBLE") → setOptDouble p flag arg pr op v = .throw .invalidArgument := by
  have hp := h.argsOk
  have tab : (pr, op, OptType.double) ∈ doubleTable ↔ pr = (lit "PROPERTY_DOUBLE") ∧ (op = (lit "MIN") ∨ op = (lit "MAX")) := by
    simp [doubleTable]
    tauto
  constructor
  · split
    · rename_i ht
      obtain ⟨m, e, -⟩ := upd_written hp.doubles flag pr op
        (f := (·.setDouble pr op v)) (text := (· = Dbl.toStr v)) (fun a ha => by
          have := (C90_write .double ha pr op).2.1 v
          rwa [if_pos (tab.2 ht)] at this)
      have e' : setOptDouble p flag (lit "ARGUMENT_DOUBLE") pr op v = .ok { p with doubleArg := m } := by
        unfold setOptDouble; rw [if_pos rfl, e]; rfl
      have r : ParserReached { p with doubleArg := m } := .optDouble _ _ _ _ _ h e'
      refine ⟨_, e', r, fun f' a' pr' op' => ?_⟩
      rw [getFlagArgOptValue_eq r.argsOk, getFlagArgOptValue_eq hp]
      rfl
    · rename_i ht
      unfold setOptDouble
      rw [if_pos rfl, upd_throw hp.doubles flag (fun a ha => by
        have := (C90_write .double ha pr op).2.1 v
        rwa [if_neg (fun e => ht (tab.1 e))] at this)]
      rfl
  · intro arg ha
    unfold setOptDouble
    rw [if_neg ha]
    split
    · rw [upd_throw hp.strs flag (fun a ha => by
        have := (C90_write .string ha pr op).2.1 v
        rwa [if_neg (by simp [stringTable])] at this)]
      rfl
    · rfl

/-! ### C92 -/

theorem inMap_has {S : Type} {new : ArgObj S D} {table : List (Str × Str × OptType)} (h0 : NewArg new table)
    {m : Map (ArgObj S D)} (hm : AllFrom new m) (flag : Str) {pr op : Str} {t : OptType} (hr : (pr, op, t) ∈ table) :
    (∃ v, inMap m flag pr op = .ok v) ↔ (m.get flag).isSome = true := by
  unfold inMap
  cases hf : m.get flag with
  | none => simp
  | some a =>
    obtain ⟨-, ⟨mm, -, -, h2⟩, -⟩ := C89_options h0 (hm _ _ hf)
    obtain ⟨v, e, -⟩ := h2 pr op t hr
    simp [e]

/-- C92 (partial): `addFlagArg` gives a flag an argument of a kind it does not have yet, with the default options, and changes
nothing else; if the flag has one of that kind already, or the kind is unknown, it throws `invalid_argument`. (That a flag has an
argument of a kind shows in `getFlagArgOptValue` succeeding for the options of the kind.) Missing: double arguments, for which this
is false (`C92_refuted_double`). -/
theorem C92_add_partial {p : Parser D} (h : ParserReached p) (flag : Str) {S : Type} {new : ArgObj S D}
    {table : List (Str × Str × OptType)} (h0 : NewArg new table) (hk : new.name ≠ (lit "ARGUMENT_DOUBLE")) :
    ((∃ pr op t v, (pr, op, t) ∈ table ∧ getFlagArgOptValue p flag new.name pr op = .ok v) →
      addFlagArg p flag new.name = .throw .invalidArgument) ∧
    ((¬ ∃ pr op t v, (pr, op, t) ∈ table ∧ getFlagArgOptValue p flag new.name pr op = .ok v) →
      ∃ q, addFlagArg p flag new.name = .ok q ∧ ParserReached q ∧
        (∀ pr op, getFlagArgOptValue q flag new.name pr op = new.propertyValue pr op) ∧
        ∀ flag' arg' pr op, (flag', arg') ≠ (flag, new.name) →
          getFlagArgOptValue q flag' arg' pr op = getFlagArgOptValue p flag' arg' pr op) := by
  have hp := h.argsOk
  have step : ∀ {q : Parser D}, addFlagArg p flag new.name = .ok q → ParserReached q ∧ ArgsOk q :=
    fun e => ⟨.addFlagArg _ _ h e, argsOk_addFlagArg hp e⟩
  have row : ∃ pr op t, (pr, op, t) ∈ table := by
    have := h0.tabulated.nonempty
    cases table with
    | nil => exact absurd rfl this
    | cons r _ => exact ⟨r.1, r.2.1, r.2.2, by simp⟩
  obtain ⟨pr0, op0, t0, hr0⟩ := row
  cases h0 with
  | double => exact absurd rfl hk
  | int =>
    have has : (∃ pr op t v, (pr, op, t) ∈ intTable ∧ getFlagArgOptValue p flag (lit "ARGUMENT_INT") pr op = .ok v) ↔
        (p.intArg.get flag).isSome = true := by
      simp only [getFlagArgOptValue_eq hp]
      constructor
      · rintro ⟨pr, op, t, v, hr, e⟩; exact (inMap_has .int hp.ints flag hr).1 ⟨v, e⟩
      · intro hs
        obtain ⟨v, hv⟩ := (inMap_has .int hp.ints flag hr0).2 hs
        exact ⟨pr0, op0, t0, v, hr0, hv⟩
    refine ⟨fun hh => ?_, fun hh => ?_⟩
    · obtain ⟨a, ha⟩ := Option.isSome_iff_exists.1 (has.1 hh)
      show addFlagArg p flag (lit "ARGUMENT_INT") = _
      unfold addFlagArg; rw [if_pos rfl, ha]
    · have ha : p.intArg.get flag = none := by
        rw [← Option.not_isSome_iff_eq_none]; exact fun h => hh (has.2 h)
      have e : addFlagArg p flag (lit "ARGUMENT_INT") = .ok { p with intArg := p.intArg.set flag newArgumentInt } := by
        unfold addFlagArg; rw [if_pos rfl, ha]
      obtain ⟨r1, r2⟩ := step e
      refine ⟨_, e, r1, fun pr op => ?_, fun f' a' pr op hne => ?_⟩
      · rw [getFlagArgOptValue_eq r2]
        show inMap (p.intArg.set flag newArgumentInt) flag pr op = _
        unfold inMap; rw [Map.get_set_self]; rfl
      · rw [getFlagArgOptValue_eq r2, getFlagArgOptValue_eq hp]
        unfold lookup
        dsimp only
        by_cases hq : a' = (lit "ARGUMENT_INT")
        · have : f' ≠ flag := by rintro rfl; exact hne (by rw [hq]; rfl)
          unfold inMap; rw [Map.get_set_ne _ this]
        · rw [if_neg hq, if_neg hq]
  | string =>
    have has : (∃ pr op t v, (pr, op, t) ∈ stringTable ∧ getFlagArgOptValue p flag (lit "ARGUMENT_STRING") pr op = .ok v) ↔
        (p.strArg.get flag).isSome = true := by
      simp only [getFlagArgOptValue_eq hp]
      constructor
      · rintro ⟨pr, op, t, v, hr, e⟩; exact (inMap_has .string hp.strs flag hr).1 ⟨v, e⟩
      · intro hs
        obtain ⟨v, hv⟩ := (inMap_has .string hp.strs flag hr0).2 hs
        exact ⟨pr0, op0, t0, v, hr0, hv⟩
    refine ⟨fun hh => ?_, fun hh => ?_⟩
    · obtain ⟨a, ha⟩ := Option.isSome_iff_exists.1 (has.1 hh)
      show addFlagArg p flag (lit "ARGUMENT_STRING") = _
      unfold addFlagArg; rw [if_neg (by decide), if_neg (by decide), if_pos rfl, ha]
    · have ha : p.strArg.get flag = none := by
        rw [← Option.not_isSome_iff_eq_none]; exact fun h => hh (has.2 h)
      have e : addFlagArg p flag (lit "ARGUMENT_STRING") = .ok { p with strArg := p.strArg.set flag newArgumentString } := by
        unfold addFlagArg; rw [if_neg (by decide), if_neg (by decide), if_pos rfl, ha]
      obtain ⟨r1, r2⟩ := step e
      refine ⟨_, e, r1, fun pr op => ?_, fun f' a' pr op hne => ?_⟩
      · rw [getFlagArgOptValue_eq r2]
        show inMap (p.strArg.set flag newArgumentString) flag pr op = _
        unfold inMap; rw [Map.get_set_self]; rfl
      · rw [getFlagArgOptValue_eq r2, getFlagArgOptValue_eq hp]
        unfold lookup
        dsimp only
        by_cases hq : a' = (lit "ARGUMENT_STRING")
        · have : f' ≠ flag := by rintro rfl; exact hne (by rw [hq]; rfl)
          unfold inMap; rw [Map.get_set_ne _ this]
        · rw [if_neg hq, if_neg hq]
  | switch =>
    have has : (∃ pr op t v, (pr, op, t) ∈ switchTable ∧ getFlagArgOptValue p flag (lit "ARGUMENT_SWITCH") pr op = .ok v) ↔
        (p.switchArg.get flag).isSome = true := by
      simp only [getFlagArgOptValue_eq hp]
      constructor
      · rintro ⟨pr, op, t, v, hr, e⟩; exact (inMap_has .switch hp.switches flag hr).1 ⟨v, e⟩
      · intro hs
        obtain ⟨v, hv⟩ := (inMap_has .switch hp.switches flag hr0).2 hs
        exact ⟨pr0, op0, t0, v, hr0, hv⟩
    refine ⟨fun hh => ?_, fun hh => ?_⟩
    · obtain ⟨a, ha⟩ := Option.isSome_iff_exists.1 (has.1 hh)
      show addFlagArg p flag (lit "ARGUMENT_SWITCH") = _
      unfold addFlagArg; rw [if_neg (by decide), if_pos rfl, ha]
    · have ha : p.switchArg.get flag = none := by
        rw [← Option.not_isSome_iff_eq_none]; exact fun h => hh (has.2 h)
      have e : addFlagArg p flag (lit "ARGUMENT_SWITCH") = .ok { p with switchArg := p.switchArg.set flag newArgumentSwitch } := by
        unfold addFlagArg; rw [if_neg (by decide), if_pos rfl, ha]
      obtain ⟨r1, r2⟩ := step e
      refine ⟨_, e, r1, fun pr op => ?_, fun f' a' pr op hne => ?_⟩
      · rw [getFlagArgOptValue_eq r2]
        show inMap (p.switchArg.set flag newArgumentSwitch) flag pr op = _
        unfold inMap; rw [Map.get_set_self]; rfl
      · rw [getFlagArgOptValue_eq r2, getFlagArgOptValue_eq hp]
        unfold lookup
        dsimp only
        by_cases hq : a' = (lit "ARGUMENT_SWITCH")
        · have : f' ≠ flag := by rintro rfl; exact hne (by rw [hq]; rfl)
          unfold inMap; rw [Map.get_set_ne _ this]
        · rw [if_neg hq, if_neg hq]
  | file =>
    have has : (∃ pr op t v, (pr, op, t) ∈ fileTable ∧ getFlagArgOptValue p flag (lit "ARGUMENT_FILE") pr op = .ok v) ↔
        (p.fileArg.get flag).isSome = true := by
      simp only [getFlagArgOptValue_eq hp]
      constructor
      · rintro ⟨pr, op, t, v, hr, e⟩; exact (inMap_has .file hp.files flag hr).1 ⟨v, e⟩
      · intro hs
        obtain ⟨v, hv⟩ := (inMap_has .file hp.files flag hr0).2 hs
        exact ⟨pr0, op0, t0, v, hr0, hv⟩
    refine ⟨fun hh => ?_, fun hh => ?_⟩
    · obtain ⟨a, ha⟩ := Option.isSome_iff_exists.1 (has.1 hh)
      show addFlagArg p flag (lit "ARGUMENT_FILE") = _
      unfold addFlagArg; rw [if_neg (by decide), if_neg (by decide), if_neg (by decide), if_pos rfl, ha]
    · have ha : p.fileArg.get flag = none := by
        rw [← Option.not_isSome_iff_eq_none]; exact fun h => hh (has.2 h)
      have e : addFlagArg p flag (lit "ARGUMENT_FILE") = .ok { p with fileArg := p.fileArg.set flag newArgumentFile } := by
        unfold addFlagArg; rw [if_neg (by decide), if_neg (by decide), if_neg (by decide), if_pos rfl, ha]
      obtain ⟨r1, r2⟩ := step e
      refine ⟨_, e, r1, fun pr op => ?_, fun f' a' pr op hne => ?_⟩
      · rw [getFlagArgOptValue_eq r2]
        show inMap (p.fileArg.set flag newArgumentFile) flag pr op = _
        unfold inMap; rw [Map.get_set_self]; rfl
      · rw [getFlagArgOptValue_eq r2, getFlagArgOptValue_eq hp]
        unfold lookup
        dsimp only
        by_cases hq : a' = (lit "ARGUMENT_FILE")
        · have : f' ≠ flag := by rintro rfl; exact hne (by rw [hq]; rfl)
          unfold inMap; rw [Map.get_set_ne _ this]
        · rw [if_neg hq, if_neg hq]

/-- C92 (unknown kinds). -/
theorem C92_unknown (p : Parser D) (flag argname : Str) (h : argname ∉ [(lit "ARGUMENT_INT"), (lit "ARGUMENT_SWITCH"),
      (lit "ARGUMENT_STRING"), (lit "ARGUMENT_FILE"), (lit "ARGUMENT_DOUBLE")]) :
    addFlagArg p flag argname = .throw .invalidArgument := by
  simp only [List.mem_cons, List.not_mem_nil, or_false, not_or] at h
  unfold addFlagArg
  rw [if_neg h.1, if_neg h.2.1, if_neg h.2.2.1, if_neg h.2.2.2.1, if_neg h.2.2.2.2]

/-- C92 (refuted for double arguments): adding a double argument a second time is accepted, and the bounds set for the first are
lost: a value above the upper bound `v` that was set is accepted afterwards. Conversely a flag that has a file argument cannot be
given a double argument. -/
theorem C92_refuted_double {p : Parser D} (h : ParserReached p) (flag : Str) :
    (p.fileArg.get flag = none → ∀ v : D, ∃ q r, setOptDouble p flag (lit "ARGUMENT_DOUBLE") (lit "PROPERTY_DOUBLE") (lit "MAX") v = .ok q ∧
      addFlagArg q flag (lit "ARGUMENT_DOUBLE") = .ok r ∧ ParserReached r ∧
      ∀ (fs : FS) (text : Str) (w : D) (rest : List Str), Dbl.stod text = .ok w → Dbl.lt w (Dbl.lowest : D) = false →
        Dbl.lt (Dbl.max : D) w = false → ∃ s, doubleStage fs flag (text :: rest) ⟨r, 0, true⟩ = .ok s ∧ getDouble s.p flag = .ok w) ∧
    ((p.fileArg.get flag).isSome = true → addFlagArg p flag (lit "ARGUMENT_DOUBLE") = .throw .invalidArgument) := by
  have hp := h.argsOk
  constructor
  · intro hf v
    obtain ⟨m, e, -⟩ := upd_written hp.doubles flag (lit "PROPERTY_DOUBLE") (lit "MAX")
      (f := (·.setDouble (lit "PROPERTY_DOUBLE") (lit "MAX") v)) (text := (· = Dbl.toStr v)) (fun a ha => by
        have := (C90_write .double ha (lit "PROPERTY_DOUBLE") (lit "MAX")).2.1 v
        rwa [if_pos (by decide)] at this)
    have e' : setOptDouble p flag (lit "ARGUMENT_DOUBLE") (lit "PROPERTY_DOUBLE") (lit "MAX") v = .ok { p with doubleArg := m } := by
      unfold setOptDouble; rw [if_pos rfl, e]; rfl
    have e2 : addFlagArg { p with doubleArg := m } flag (lit "ARGUMENT_DOUBLE") =
        .ok { p with doubleArg := m.set flag newArgumentDouble } := by
      unfold addFlagArg
      rw [if_neg (by decide), if_neg (by decide), if_neg (by decide), if_neg (by decide), if_pos rfl]
      dsimp only
      rw [hf]
    refine ⟨_, _, e', e2, .addFlagArg _ _ (.optDouble _ _ _ _ _ h e') e2, fun fs text w rest hw h1 h2 => ?_⟩
    have hv : (newArgumentDouble : ArgObj D D).valid fs w = .ok newArgumentDouble := by
      have : doubleValid fs w newPropertyDouble.opts = .ok newPropertyDouble.opts := by
        have g1 : getOpt (newPropertyDouble (D := D)).opts (lit "MIN") = .ok Dbl.lowest := rfl
        have g2 : getOpt (newPropertyDouble (D := D)).opts (lit "MAX") = .ok Dbl.max := rfl
        unfold doubleValid
        rw [g1, g2]
        simp [h1, h2]
      have hl : validAll fs w [newPropertyDouble (D := D)] = .ok [newPropertyDouble] := by
        unfold validAll
        rw [List.mapM_cons]
        show ((doubleValid fs w newPropertyDouble.opts >>= _) >>= _) = _
        rw [this]; rfl
      unfold ArgObj.valid
      show ((Res.ok [] : Res (List (PropObj D Int))) >>= fun ints => validAll fs w [newPropertyDouble] >>= _) = _
      rw [hl]; rfl
    refine ⟨⟨{ p with doubleArg := (m.set flag newArgumentDouble).set flag newArgumentDouble, doubles := p.doubles.set flag w }, 1, false⟩, ?_, ?_⟩
    · unfold doubleStage
      dsimp only
      rw [Map.get_set_self]
      show (Dbl.stod text >>= _) = _
      rw [hw]
      show ((newArgumentDouble : ArgObj D D).valid fs w >>= _) = _
      rw [hv]; rfl
    · unfold getDouble
      dsimp only
      rw [Map.get_set_self]
  · intro hf
    obtain ⟨a, ha⟩ := Option.isSome_iff_exists.1 hf
    unfold addFlagArg
    rw [if_neg (by decide), if_neg (by decide), if_neg (by decide), if_neg (by decide), if_pos rfl, ha]

/-- C92 (double arguments, exactly): `addFlagArg` with a double argument throws `invalid_argument` exactly when the flag has a *file* argument;
otherwise the flag has, whatever it had before, a double argument that accepts everything within the limits of `double`, and no answer of
`getFlagArgOptValue` changes. -/
theorem C92_double {p : Parser D} (h : ParserReached p) (flag : Str) :
    ((∃ pr op t v, (pr, op, t) ∈ fileTable ∧ getFlagArgOptValue p flag (lit "ARGUMENT_FILE") pr op = .ok v) →
      addFlagArg p flag (lit "ARGUMENT_DOUBLE") = .throw .invalidArgument) ∧
    ((¬ ∃ pr op t v, (pr, op, t) ∈ fileTable ∧ getFlagArgOptValue p flag (lit "ARGUMENT_FILE") pr op = .ok v) →
      ∃ q, addFlagArg p flag (lit "ARGUMENT_DOUBLE") = .ok q ∧ ParserReached q ∧
        (∀ flag' arg pr op, getFlagArgOptValue q flag' arg pr op = getFlagArgOptValue p flag' arg pr op) ∧
        ∀ (fs : FS) (text : Str) (w : D) (rest : List Str), Dbl.stod text = .ok w →
          if Dbl.lt w (Dbl.lowest : D) = true ∨ Dbl.lt (Dbl.max : D) w = true then doubleStage fs flag (text :: rest) ⟨q, 0, true⟩ = .throw .invalidArgument
          else ∃ s, doubleStage fs flag (text :: rest) ⟨q, 0, true⟩ = .ok s ∧ s.used = 1 ∧ getDouble s.p flag = .ok w) := by
  have hp := h.argsOk
  have has : (∃ pr op t v, (pr, op, t) ∈ fileTable ∧ getFlagArgOptValue p flag (lit "ARGUMENT_FILE") pr op = .ok v) ↔
      (p.fileArg.get flag).isSome = true := by
    simp only [getFlagArgOptValue_eq hp]
    constructor
    · rintro ⟨pr, op, t, v, hr, e⟩; exact (inMap_has .file hp.files flag hr).1 ⟨v, e⟩
    · intro hs
      have hr : ((lit "PROPERTY_FILE_EXIST"), (lit "FILE_MUST_EXIST"), OptType.int) ∈ fileTable := by decide
      obtain ⟨v, hv⟩ := (inMap_has .file hp.files flag hr).2 hs
      exact ⟨_, _, _, v, hr, hv⟩
  rw [has]
  constructor
  · exact (C92_refuted_double h flag).2
  · intro hf
    have hf : p.fileArg.get flag = none := by rwa [Option.not_isSome_iff_eq_none] at hf
    have e2 : addFlagArg p flag (lit "ARGUMENT_DOUBLE") = .ok { p with doubleArg := p.doubleArg.set flag newArgumentDouble } := by
      unfold addFlagArg
      rw [if_neg (by decide), if_neg (by decide), if_neg (by decide), if_neg (by decide), if_pos rfl]
      rw [hf]
    have r : ParserReached { p with doubleArg := p.doubleArg.set flag newArgumentDouble } := .addFlagArg _ _ h e2
    refine ⟨_, e2, r, fun f' a' pr op => ?_, fun fs text w rest hw => ?_⟩
    · rw [getFlagArgOptValue_eq r.argsOk, getFlagArgOptValue_eq hp]
      rfl
    · have g1 : getOpt (newPropertyDouble (D := D)).opts (lit "MIN") = .ok Dbl.lowest := rfl
      have g2 : getOpt (newPropertyDouble (D := D)).opts (lit "MAX") = .ok Dbl.max := rfl
      have es : doubleStage fs flag (text :: rest) ⟨{ p with doubleArg := p.doubleArg.set flag newArgumentDouble }, 0, true⟩ =
          (newArgumentDouble : ArgObj D D).valid fs w >>= fun a' =>
            .ok (ArgState.mk ({ p with doubleArg := (p.doubleArg.set flag newArgumentDouble).set flag a', doubles := p.doubles.set flag w } : Parser D) 1 false) := by
        unfold doubleStage
        dsimp only
        rw [Map.get_set_self]
        show (Dbl.stod text >>= _) = _
        rw [hw]
        rfl
      have ev : (newArgumentDouble : ArgObj D D).valid fs w = (validAll fs w [newPropertyDouble (D := D)] >>= fun ds =>
          .ok { (newArgumentDouble : ArgObj D D) with doubles := ds }) := rfl
      have el : validAll fs w [newPropertyDouble (D := D)] = (doubleValid fs w newPropertyDouble.opts >>= fun o =>
          .ok [{ newPropertyDouble (D := D) with opts := o }]) := by
        unfold validAll
        rw [List.mapM_cons]
        show ((doubleValid fs w newPropertyDouble.opts >>= _) >>= _) = _
        cases doubleValid fs w (newPropertyDouble (D := D)).opts <;> rfl
      have ed : doubleValid fs w (newPropertyDouble (D := D)).opts =
          if Dbl.lt w (Dbl.lowest : D) = true ∨ Dbl.lt (Dbl.max : D) w = true then .throw .invalidArgument else .ok (newPropertyDouble (D := D)).opts := by
        unfold doubleValid
        rw [g1, g2]
        simp only [Res.ok_bind]
        cases Dbl.lt w (Dbl.lowest : D) <;> cases Dbl.lt (Dbl.max : D) w <;> simp
      rw [es, ev, el, ed]
      split
      · rfl
      · refine ⟨_, rfl, rfl, ?_⟩
        unfold getDouble
        dsimp only
        rw [Map.get_set_self]

end

/-- A parser in use meets the hypothesis of C91. -/
example {D : Type} [Dbl D] : ∃ p q : Parser D, newParser [[(lit "--number"), (lit "-n"), (lit "A number")]] = .ok p ∧
    ParserReached p ∧ setOptInt p (lit "--number") (lit "ARGUMENT_INT") (lit "PROPERTY_INT") (lit "MIN") 3 = .ok q ∧
    getFlagArgOptValue q (lit "--number") (lit "ARGUMENT_INT") (lit "PROPERTY_INT") (lit "MIN") = .ok (lit "3") := by
  have e : ∃ p : Parser D, newParser [[(lit "--number"), (lit "-n"), (lit "A number")]] = .ok p := ⟨_, rfl⟩
  obtain ⟨p, e⟩ := e
  have hp : ParserReached p := .new _ e
  have := (C91_int_partial hp (lit "--number") (lit "PROPERTY_INT") (lit "MIN") 3).1
  rw [if_pos (by decide)] at this
  obtain ⟨q, e1, w⟩ := this
  obtain ⟨t, ht, e2⟩ := w.read
  exact ⟨p, q, e, hp, e1, by rw [e2, ht]; rfl⟩

end Verif.Args
