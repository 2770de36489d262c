import Verif.Props.ParserCopies
import Verif.Props.ArgRetryEx
/-
Property C135: programs with copies of parsers. They meet the hypotheses of C135, and show what a caller may not rely on.
-/
namespace Verif.Args
section
variable {D : Type} [Dbl D]

/-- A deed carried out. -/
def World.act (w : World D) : Deed D → Res (World D)
  | .make flags => match newParserH flags with | .ok h => .ok ⟨w.st, w.ps ++ [h]⟩ | _ => .ub
  | .copy i => match w.ps[i]? with | some h => .ok ⟨w.st, w.ps ++ [h]⟩ | none => .ub
  | .assign dst source => match w.ps[source]? with | some h => if dst < w.ps.length then .ok ⟨w.st, w.ps.set dst h⟩ else .ub | none => .ub
  | .call i c =>
    match w.ps[i]? with
    | none => .ub
    | some h =>
      match (c.onMem ⟨w.st, h⟩).2 with
      | .ok _ => .ok ⟨(c.onMem ⟨w.st, h⟩).1.st, w.ps.set i (c.onMem ⟨w.st, h⟩).1.h⟩
      | .throw _ => .ok ⟨(c.onMem ⟨w.st, h⟩).1.st, w.ps.set i (c.onMem ⟨w.st, h⟩).1.h⟩
      | _ => .ub

theorem act_step {w w' : World D} {d : Deed D} (h : w.act d = .ok w') : Step w d w' := by
  cases d with
  | make flags =>
    simp only [World.act] at h
    cases e : (newParserH flags : Res (Handle D)) with
    | ok x => rw [e] at h; cases h; exact .make _ e
    | _ => rw [e] at h; cases h
  | copy i =>
    simp only [World.act] at h
    cases e : w.ps[i]? with
    | some x => rw [e] at h; cases h; exact .copy _ e
    | none => rw [e] at h; cases h
  | assign dst source =>
    simp only [World.act] at h
    cases e : w.ps[source]? with
    | none => rw [e] at h; cases h
    | some x =>
      rw [e] at h
      simp only at h
      by_cases c : dst < w.ps.length
      · rw [if_pos c] at h; cases h; exact .assign _ _ e c
      · rw [if_neg c] at h; cases h
  | call i c =>
    simp only [World.act] at h
    cases e : w.ps[i]? with
    | none => rw [e] at h; cases h
    | some x =>
      rw [e] at h
      simp only at h
      cases r : (c.onMem ⟨w.st, x⟩).2 with
      | ok u => rw [r] at h; cases h; exact .call _ _ e (.inl ⟨u, r⟩)
      | throw u => rw [r] at h; cases h; exact .call _ _ e (.inr ⟨u, r⟩)
      | _ => rw [r] at h; cases h

/-- Deeds carried out one after the other. -/
def World.acts : World D → List (Deed D) → Res (World D)
  | w, [] => .ok w
  | w, d :: ds => w.act d >>= fun w => w.acts ds

theorem Later.trans {a b c : World D} {ds es : List (Deed D)} (h : Later a ds b) (h' : Later b es c) : Later a (ds ++ es) c := by
  induction h' with
  | refl => rw [List.append_nil]; exact h
  | step _ s ih => rw [← List.append_assoc]; exact ih.step s

theorem acts_later {ds : List (Deed D)} : ∀ {w w' : World D}, w.acts ds = .ok w' → Later w ds w' := by
  induction ds with
  | nil => intro w w' h; cases h; exact .refl
  | cons d ds ih =>
    intro w w' h
    obtain ⟨v, e1, e2⟩ := Res.bind_eq_ok.1 h
    exact Later.trans (ds := [d]) (.step (ds := []) .refl (act_step e1)) (ih e2)

/-- What a program comes to, and what is to be known about it. -/
theorem runs {β : Type} {ds : List (Deed D)} (f : World D → β) {y : β} (h : ((World.empty : World D).acts ds >>= fun w => Res.ok (f w)) = .ok y) :
    ∃ w, Later World.empty ds w ∧ f w = y := by
  obtain ⟨w, e, h⟩ := Res.bind_eq_ok.1 h
  exact ⟨w, acts_later e, Res.ok.inj h⟩

theorem map_two {A B : Type} {f : A → B} {l : List A} {x y : B} (h : l.map f = [x, y]) : ∃ a b, l = [a, b] ∧ f a = x ∧ f b = y := by
  obtain ⟨a, t, rfl, h1, h2⟩ := List.map_eq_cons_iff.1 h
  obtain ⟨b, u, rfl, h3, h4⟩ := List.map_eq_cons_iff.1 h2
  rw [List.map_eq_nil_iff] at h4
  subst h4
  exact ⟨a, b, rfl, h1, h3⟩

/-- A parser with a number and a text, and a copy of it. -/
def twins : List (Deed D) :=
  [.make [[(lit "--depth"), (lit "-d")], [(lit "--name"), (lit "-n")], [(lit "--quiet"), (lit "-q")]],
    .call 0 (.addFlagArg (lit "--depth") (lit "ARGUMENT_INT")), .call 0 (.addFlagArg (lit "--name") (lit "ARGUMENT_STRING")), .copy 0]

/-- How reading a command line ends, with the numbered parser. -/
def World.reads (w : World D) (i : Nat) (args : List Str) : Option (Res Unit) := (w.ps[i]?).map fun h => (parseH (fun _ => true) ⟨w.st, h⟩ args).2

/-- C135: copies are not independent. The original takes `-d 12`; after `setFlagArgOpt("--depth", "ARGUMENT_INT", "PROPERTY_INT", "MAX", 9)` on its copy, it
does not - and says that its largest value is 9. -/
theorem C135_not_independent : ∃ w w' : World D, Past w ∧
    Step w (.call 1 (.optInt (lit "--depth") (lit "ARGUMENT_INT") (lit "PROPERTY_INT") (lit "MAX") 9)) w' ∧
    w.reads 0 [(lit "-d"), (lit "12")] = some (.ok ()) ∧ w'.reads 0 [(lit "-d"), (lit "12")] = some (.throw .invalidArgument) ∧
    ((w.sees 0).map fun p => getFlagArgOptValue p (lit "--depth") (lit "ARGUMENT_INT") (lit "PROPERTY_INT") (lit "MAX")) = some (.ok (lit "2147483647")) ∧
    ((w'.sees 0).map fun p => getFlagArgOptValue p (lit "--depth") (lit "ARGUMENT_INT") (lit "PROPERTY_INT") (lit "MAX")) = some (.ok (lit "9")) := by
  let d : Deed D := .call 1 (.optInt (lit "--depth") (lit "ARGUMENT_INT") (lit "PROPERTY_INT") (lit "MAX") 9)
  let ask : World D → Option (Res Str) := fun w => (w.sees 0).map fun p => getFlagArgOptValue p (lit "--depth") (lit "ARGUMENT_INT") (lit "PROPERTY_INT") (lit "MAX")
  obtain ⟨w, l, h⟩ := runs (D := D) (ds := twins) (fun w => (w.act d >>= fun v => Res.ok (v.reads 0 [(lit "-d"), (lit "12")], ask v),
    w.reads 0 [(lit "-d"), (lit "12")], ask w)) (y := (.ok (some (.throw .invalidArgument), some (.ok (lit "9"))), some (.ok ()), some (.ok (lit "2147483647"))))
    (by kernel_rfl)
  obtain ⟨h1, h2⟩ := Prod.mk.injEq .. ▸ h
  obtain ⟨h2, h3⟩ := Prod.mk.injEq .. ▸ h2
  obtain ⟨v, e, h1⟩ := Res.bind_eq_ok.1 h1
  obtain ⟨h4, h5⟩ := Prod.mk.injEq .. ▸ (Res.ok.inj h1)
  exact ⟨w, v, ⟨_, l⟩, act_step e, h2, h4, h3, h5⟩

/-- C135: nor are they the same. The copy reads `-d 5`; the original still has no value for the flag, but shares the argument, not the one added later. -/
theorem C135_not_same : ∃ w : World D, Past w ∧ Shares w 0 1 .int (lit "--depth") ∧ Shares w 1 0 .str (lit "--name") ∧
    ¬ Shares w 0 1 .switch (lit "--quiet") ∧ w.objects = 4 ∧
    ((w.sees 0).map fun p => getInt p (lit "--depth")) = some (.throw .invalidArgument) ∧ ((w.sees 1).map fun p => getInt p (lit "--depth")) = some (.ok 5) := by
  obtain ⟨w, l, h⟩ := runs (D := D) (ds := twins ++ [.call 1 (.addFlagArg (lit "--quiet") (lit "ARGUMENT_SWITCH")),
      .call 0 (.addFlagArg (lit "--quiet") (lit "ARGUMENT_SWITCH")), .call 1 (.parse (fun _ => true) [(lit "-d"), (lit "5")])])
    (fun w => (w.ps.map fun h => (h.ptr .int (lit "--depth"), h.ptr .str (lit "--name"), h.ptr .switch (lit "--quiet")), w.objects,
      (w.sees 0).map fun p => getInt p (lit "--depth"), (w.sees 1).map fun p => getInt p (lit "--depth")))
    (y := ([(some 0, some 0, some 1), (some 0, some 0, some 0)], 4, some (.throw .invalidArgument), some (.ok 5)))
    (by kernel_rfl)
  obtain ⟨h1, h2⟩ := Prod.mk.injEq .. ▸ h
  obtain ⟨h2, h3⟩ := Prod.mk.injEq .. ▸ h2
  obtain ⟨h3, h4⟩ := Prod.mk.injEq .. ▸ h3
  obtain ⟨st, ps⟩ := w
  obtain ⟨a, b, rfl, ha, hb⟩ := map_two h1
  simp only [Prod.mk.injEq] at ha hb
  obtain ⟨a1, a2, a3⟩ := ha
  obtain ⟨b1, b2, b3⟩ := hb
  refine ⟨_, ⟨_, l⟩, ⟨a, b, 0, rfl, rfl, a1, b1⟩, ⟨b, a, 0, rfl, rfl, b2, a2⟩, ?_, h2, h3, h4⟩
  rintro ⟨x, y, n, hx, hy, hn, hm⟩
  cases hx
  cases hy
  rw [a3] at hn
  rw [b3] at hm
  cases hn
  cases hm

/-- C135: `addFlagArg(flag, "ARGUMENT_DOUBLE")` called twice: the second call gives the parser a new argument, which is no longer the copy's; the first object stays
allocated. -/
theorem C135_renewed : ∃ w w' : World D, Past w ∧ Step w (.call 0 (.addFlagArg (lit "--x") (lit "ARGUMENT_DOUBLE"))) w' ∧
    Shares w 0 1 .double (lit "--x") ∧ ¬ Shares w' 0 1 .double (lit "--x") ∧ w.objects = 1 ∧ w'.objects = 2 := by
  obtain ⟨w, l, h⟩ := runs (D := D) (ds := [.make [[(lit "--x"), (lit "-x")]], .call 0 (.addFlagArg (lit "--x") (lit "ARGUMENT_DOUBLE")), .copy 0])
    (fun w => (w.act (.call 0 (.addFlagArg (lit "--x") (lit "ARGUMENT_DOUBLE"))) >>= fun v => Res.ok (v.ps.map fun h => h.ptr .double (lit "--x"), v.objects),
      w.ps.map fun h => h.ptr .double (lit "--x"), w.objects))
    (y := (.ok ([some 1, some 0], 2), [some 0, some 0], 1)) (by kernel_rfl)
  obtain ⟨h1, h2⟩ := Prod.mk.injEq .. ▸ h
  obtain ⟨h2, h3⟩ := Prod.mk.injEq .. ▸ h2
  obtain ⟨v, e, h1⟩ := Res.bind_eq_ok.1 h1
  obtain ⟨h4, h5⟩ := Prod.mk.injEq .. ▸ (Res.ok.inj h1)
  refine ⟨w, v, ⟨_, l⟩, act_step e, ?_, ?_, h3, h5⟩
  · obtain ⟨st, ps⟩ := w
    obtain ⟨a, b, rfl, ha, hb⟩ := map_two h2
    exact ⟨a, b, 0, rfl, rfl, ha, hb⟩
  · obtain ⟨st, ps⟩ := v
    obtain ⟨a, b, rfl, ha, hb⟩ := map_two h4
    rintro ⟨x, y, n, hx, hy, hn, hm⟩
    cases hx
    cases hy
    rw [ha] at hn
    rw [hb] at hm
    cases hn
    cases hm

/-- C135: an object that is lost: `setFlagArgOpt` for a flag without that argument, and an option that does not exist. -/
theorem C135_lost : ∃ w w' : World D, Past w ∧ Step w (.call 0 (.optInt (lit "--x") (lit "ARGUMENT_INT") (lit "PROPERTY_INT") (lit "MID") 3)) w' ∧
    w'.sees 0 = w.sees 0 ∧ w.objects = 0 ∧ w'.objects = 1 := by
  obtain ⟨w, l, h⟩ := runs (D := D) (ds := [.make [[(lit "--x"), (lit "-x")]]])
    (fun w => (w.act (.call 0 (.optInt (lit "--x") (lit "ARGUMENT_INT") (lit "PROPERTY_INT") (lit "MID") 3)) >>= fun v => Res.ok v.objects, w.objects,
      (w.sees 0).map fun p => (setOptIntL p (lit "--x") (lit "ARGUMENT_INT") (lit "PROPERTY_INT") (lit "MID") 3).2))
    (y := (.ok 1, 0, some (.throw .invalidArgument))) (by kernel_rfl)
  obtain ⟨h1, h2⟩ := Prod.mk.injEq .. ▸ h
  obtain ⟨h2, h3⟩ := Prod.mk.injEq .. ▸ h2
  obtain ⟨v, e, h1⟩ := Res.bind_eq_ok.1 h1
  have s := act_step e
  have hp : Past w := ⟨_, l⟩
  refine ⟨w, v, hp, s, ?_, h2, Res.ok.inj h1⟩
  cases hs : w.sees 0 with
  | none => rw [hs] at h3; cases h3
  | some p =>
    obtain ⟨h', hi, -⟩ := sees_eq hs
    obtain ⟨o1, o2, o3⟩ := C135_call hp hi hs (.optInt (lit "--x") (lit "ARGUMENT_INT") (lit "PROPERTY_INT") (lit "MID") 3)
    rw [o3 v s]
    rw [hs] at h3
    congr 1
    exact ((C134_setters (C135_reached hp hs) (lit "--x") (lit "ARGUMENT_INT") (lit "PROPERTY_INT") (lit "MID")).2.1 3).2 .invalidArgument (Option.some.inj h3)

end
end Verif.Args
