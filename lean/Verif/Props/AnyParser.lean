import Verif.Spec.AnyParser
import Verif.Props.Stoi
/-
Property C102: reading a command line with an arbitrary parser.
-/
namespace Verif.Args
open Strings

section
variable {D : Type}

/-- Flags and kinds of arguments agree. -/
structure SameSetup (p q : Parser D) : Prop where
  flags : q.flags = p.flags
  kind : ∀ f k, HasArg q f k ↔ HasArg p f k

theorem SameSetup.refl (p : Parser D) : SameSetup p p := ⟨rfl, fun _ _ => Iff.rfl⟩
theorem SameSetup.trans {p q r : Parser D} (h : SameSetup p q) (h' : SameSetup q r) : SameSetup p r :=
  ⟨h'.flags.trans h.flags, fun f k => (h'.kind f k).trans (h.kind f k)⟩

theorem SameSetup.orderly {p q : Parser D} (h : SameSetup p q) (o : Orderly p) : Orderly q := by
  refine ⟨?_, ?_, ?_, ?_⟩
  · intro f k k' a b; exact o.one f k k' ((h.kind _ _).1 a) ((h.kind _ _).1 b)
  · intro f k a; rw [h.flags]; exact o.declared f k ((h.kind _ _).1 a)
  · rw [h.flags]; exact o.nodup
  · rw [h.flags]; exact o.short

theorem get_set_ne_none {V : Type} {m : Map V} {f g : Str} {v : V} (h : m.get f ≠ none) : ((m.set f v).get g ≠ none) ↔ m.get g ≠ none := by
  rw [Map.get_set]
  split
  · subst_vars; simp [h]
  · rfl

/-- What taking the value of one flag changes. -/
inductive Took (fs : FS) (p : Parser D) (f : Str) : List Str → Parser D → Nat → Prop
  | str {a a' v ts} (h : p.strArg.get f = some a) : Took fs p f (v :: ts) { p with strArg := p.strArg.set f a', strs := p.strs.set f v } 1
  | switch {a ts} (h : p.switchArg.get f = some a) : Took fs p f ts { p with ints := p.ints.set f 1 } 0
  | switchVal {a a' v ts on} (h : p.switchArg.get f = some a) (hn : nextIsFlag p (v :: ts) = false) (hp : positive v = .ok on) :
      Took fs p f (v :: ts) { p with switchArg := p.switchArg.set f a', strs := p.strs.set f v, ints := p.ints.set f (if on then 1 else 0) } 0
  | int {a a' v n ts} (h : p.intArg.get f = some a) (hn : stoi v = .ok n) :
      Took fs p f (v :: ts) { p with intArg := p.intArg.set f a', ints := p.ints.set f n } 1
  | file {a a' v ts} (h : p.fileArg.get f = some a) : Took fs p f (v :: ts) { p with fileArg := p.fileArg.set f a', strs := p.strs.set f v } 1

variable [Dbl D]

/-- The same for doubles. -/
def TookDouble (p : Parser D) (f : Str) (rest : List Str) (q : Parser D) (used : Nat) : Prop :=
  ∃ a a' v x ts, p.doubleArg.get f = some a ∧ rest = v :: ts ∧ Dbl.stod v = .ok x ∧ used = 1 ∧
    q = { p with doubleArg := p.doubleArg.set f a', doubles := p.doubles.set f x }

theorem parseArg_took {fs : FS} {p q : Parser D} {t : Str} {rest : List Str} {used : Nat} (o : Orderly p)
    (h : parseArg fs p t rest = .ok (q, used)) : Took fs p (resolve p t) rest q used ∨ TookDouble p (resolve p t) rest q used := by
  unfold parseArg at h
  generalize hf : resolve p t = f at h ⊢
  have no : ∀ {k k'}, HasArg p f k → k ≠ k' → ¬ HasArg p f k' := fun a n b => n (o.one f _ _ a b)
  obtain ⟨s1, e1, h⟩ := Res.bind_eq_ok.1 h
  unfold strStage at e1
  by_cases hstr : HasArg p f .str
  · obtain ⟨a, ha⟩ := Option.ne_none_iff_exists'.1 hstr
    have n1 : p.switchArg.get f = none := not_not.1 (no hstr (k' := .switch) (by decide))
    have n2 : p.intArg.get f = none := not_not.1 (no hstr (k' := .int) (by decide))
    have n3 : p.doubleArg.get f = none := not_not.1 (no hstr (k' := .double) (by decide))
    have n4 : p.fileArg.get f = none := not_not.1 (no hstr (k' := .file) (by decide))
    simp only [ha, List.drop_zero] at e1
    cases rest with
    | nil => cases e1
    | cons v ts =>
      obtain ⟨a', -, e1⟩ := Res.bind_eq_ok.1 e1
      cases e1
      simp only [switchStage, intStage, doubleStage, fileStage, n1, n2, n3, n4, Res.ok_bind, Bool.false_eq_true, if_false] at h
      cases h
      exact .inl (.str ha)
  · have n0 : p.strArg.get f = none := not_not.1 hstr
    simp only [n0] at e1
    cases e1
    obtain ⟨s2, e2, h⟩ := Res.bind_eq_ok.1 h
    unfold switchStage at e2
    by_cases hsw : HasArg p f .switch
    · obtain ⟨a, ha⟩ := Option.ne_none_iff_exists'.1 hsw
      have n2 : p.intArg.get f = none := not_not.1 (no hsw (k' := .int) (by decide))
      have n3 : p.doubleArg.get f = none := not_not.1 (no hsw (k' := .double) (by decide))
      have n4 : p.fileArg.get f = none := not_not.1 (no hsw (k' := .file) (by decide))
      simp only [ha, List.drop_zero] at e2
      split at e2
      · rename_i hn
        cases rest with
        | nil =>
          cases e2
          simp only [intStage, doubleStage, fileStage, n2, n3, n4, Res.ok_bind, Bool.false_eq_true, if_false] at h
          cases h
          exact .inl (.switch ha)
        | cons v ts =>
          obtain ⟨a', -, e2⟩ := Res.bind_eq_ok.1 e2
          obtain ⟨on, hp, e2⟩ := Res.bind_eq_ok.1 e2
          cases e2
          simp only [intStage, doubleStage, fileStage, n2, n3, n4, Res.ok_bind, Bool.false_eq_true, if_false] at h
          cases h
          exact .inl (.switchVal ha (by simpa using hn) hp)
      · cases e2
        simp only [intStage, doubleStage, fileStage, n2, n3, n4, Res.ok_bind, Bool.false_eq_true, if_false] at h
        cases h
        exact .inl (.switch ha)
    · have n1 : p.switchArg.get f = none := not_not.1 hsw
      simp only [n1] at e2
      cases e2
      obtain ⟨s3, e3, h⟩ := Res.bind_eq_ok.1 h
      unfold intStage at e3
      by_cases hint : HasArg p f .int
      · obtain ⟨a, ha⟩ := Option.ne_none_iff_exists'.1 hint
        have n3 : p.doubleArg.get f = none := not_not.1 (no hint (k' := .double) (by decide))
        have n4 : p.fileArg.get f = none := not_not.1 (no hint (k' := .file) (by decide))
        simp only [ha, List.drop_zero] at e3
        cases rest with
        | nil => cases e3
        | cons v ts =>
          obtain ⟨n, hn, e3⟩ := Res.bind_eq_ok.1 e3
          obtain ⟨a', -, e3⟩ := Res.bind_eq_ok.1 e3
          cases e3
          simp only [doubleStage, fileStage, n3, n4, Res.ok_bind, Bool.false_eq_true, if_false] at h
          cases h
          exact .inl (.int ha hn)
      · have n2 : p.intArg.get f = none := not_not.1 hint
        simp only [n2] at e3
        cases e3
        obtain ⟨s4, e4, h⟩ := Res.bind_eq_ok.1 h
        unfold doubleStage at e4
        by_cases hdb : HasArg p f .double
        · obtain ⟨a, ha⟩ := Option.ne_none_iff_exists'.1 hdb
          have n4 : p.fileArg.get f = none := not_not.1 (no hdb (k' := .file) (by decide))
          simp only [ha, List.drop_zero] at e4
          cases rest with
          | nil => cases e4
          | cons v ts =>
            obtain ⟨x, hx, e4⟩ := Res.bind_eq_ok.1 e4
            obtain ⟨a', -, e4⟩ := Res.bind_eq_ok.1 e4
            cases e4
            simp only [fileStage, n4, Res.ok_bind, Bool.false_eq_true, if_false] at h
            cases h
            exact .inr ⟨a, a', v, x, ts, ha, rfl, hx, rfl, rfl⟩
        · have n3 : p.doubleArg.get f = none := not_not.1 hdb
          simp only [n3] at e4
          cases e4
          obtain ⟨s5, e5, h⟩ := Res.bind_eq_ok.1 h
          unfold fileStage at e5
          cases ha : p.fileArg.get f with
          | none =>
            simp only [ha] at e5
            cases e5
            simp at h
          | some a =>
            simp only [ha, List.drop_zero] at e5
            cases rest with
            | nil => cases e5
            | cons v ts =>
              obtain ⟨a', -, e5⟩ := Res.bind_eq_ok.1 e5
              cases e5
              simp only [Bool.false_eq_true, if_false] at h
              cases h
              exact .inl (.file ha)

omit [Dbl D] in
theorem get_of_mem {m : Map (Str × Str)} (nd : (m.map (·.1)).Nodup) {x : Str × Str × Str} (h : x ∈ m) : m.get x.1 = some x.2 := by
  induction m with
  | nil => cases h
  | cons y ys ih =>
    simp only [List.map_cons, List.nodup_cons] at nd
    rcases List.mem_cons.1 h with rfl | h
    · simp [Map.get]
    · have hne : y.1 ≠ x.1 := fun e => nd.1 (e ▸ List.mem_map_of_mem h)
      have := ih nd.2 h
      simp only [Map.get]
      rw [if_neg (Ne.symm hne)]
      exact this

omit [Dbl D] in
theorem stands_resolve {p : Parser D} (o : Orderly p) {t : Str} {k : ArgKind} (h : HasArg p (resolve p t) k) : StandsFor p t (resolve p t) := by
  unfold resolve at h ⊢
  cases hg : p.flags.get t with
  | some x => simp only [hg] at h ⊢; exact .inl ⟨by rw [hg]; simp, rfl⟩
  | none =>
    simp only [hg] at h ⊢
    cases hf : p.flags.find? (fun f => f.2.1 == t) with
    | none => simp only [hf] at h; exact absurd hg (o.declared _ _ h)
    | some x =>
      simp only [hf] at h ⊢
      refine .inr ⟨hg, x.2.2, ?_⟩
      rw [get_of_mem o.nodup (List.mem_of_find?_eq_some hf)]
      have := List.find?_some hf
      simp only [beq_iff_eq] at this
      rw [← this]

omit [Dbl D] in
theorem StandsFor.unique {p : Parser D} (o : Orderly p) {t f g : Str} (h : StandsFor p t f) (h' : StandsFor p t g) : f = g := by
  rcases h with ⟨a, rfl⟩ | ⟨a, d, b⟩ <;> rcases h' with ⟨a', rfl⟩ | ⟨a', d', b'⟩
  · rfl
  · exact absurd a' a
  · exact absurd a a'
  · exact o.short _ _ _ _ _ b b'

omit [Dbl D] in
/-- Someone who reads the command line with the flags in hand cannot read it in two ways. -/
theorem Says.unique {p : Parser D} (o : Orderly p) {args : List Str} {as bs : List (Str × Option Str)} (h : Says p args as) (h' : Says p args bs) :
    as = bs := by
  induction h generalizing bs with
  | nil => cases h'; rfl
  | info hi _ ih =>
    cases h' with
    | info _ h => exact ih h
    | value n => exact absurd hi n
    | switch n => exact absurd hi n
  | value hi hv hs ha hk _ ih =>
    cases h' with
    | info n => exact absurd n hi
    | value _ _ hs' ha' _ h => rw [hs.unique o hs', ih h]
    | switch _ _ hs' ha' _ => rw [← hs.unique o hs'] at ha'; exact absurd (o.one _ _ _ ha ha') hk
  | switch hi hv hs ha _ ih =>
    cases h' with
    | info n => exact absurd n hi
    | value _ _ hs' ha' hk _ => rw [← hs.unique o hs'] at ha'; exact absurd (o.one _ _ _ ha' ha) hk
    | switch _ _ hs' _ h => rw [hs.unique o hs', ih h]

omit [Dbl D] in
theorem SameSetup.says {p q : Parser D} (h : SameSetup p q) {args : List Str} {as : List (Str × Option Str)} (hs : Says q args as) : Says p args as := by
  have st : ∀ t f, StandsFor q t f → StandsFor p t f := by intro t f; unfold StandsFor; rw [h.flags]; exact id
  induction hs with
  | nil => exact .nil
  | info hi _ ih => exact .info hi ih
  | value hi hv hs ha hk _ ih => exact .value hi hv (st _ _ hs) ((h.kind _ _).1 ha) hk ih
  | switch hi hv hs ha _ ih => exact .switch hi hv (st _ _ hs) ((h.kind _ _).1 ha) ih

theorem lastSaid_cons (f g : Str) (v : Option Str) (as : List (Str × Option Str)) :
    lastSaid f ((g, v) :: as) = if g = f then some ((lastSaid f as).getD v) else lastSaid f as := by
  unfold lastSaid
  by_cases e : g = f
  · subst e
    simp only [List.filter_cons, decide_true, if_true, List.map_cons]
    rw [List.getLast?_cons]
  · simp only [List.filter_cons, e, decide_false, Bool.false_eq_true, if_false]

/-- The values held after a command line. -/
structure Holds (p : Parser D) (as : List (Str × Option Str)) (q : Parser D) : Prop where
  sizes : q.sizes = p.sizes
  int : ∀ f, HasArg p f .int → (lastSaid f as = none ∧ q.ints.get f = p.ints.get f) ∨
    ∃ v n, lastSaid f as = some (some v) ∧ stoi v = .ok n ∧ q.ints.get f = some n
  switch : ∀ f, HasArg p f .switch → q.strs.get f = p.strs.get f ∧ ((lastSaid f as = none ∧ q.ints.get f = p.ints.get f) ∨
    (lastSaid f as = some none ∧ q.ints.get f = some 1))
  str : ∀ f, HasArg p f .str ∨ HasArg p f .file → (lastSaid f as = none ∧ q.strs.get f = p.strs.get f) ∨
    ∃ v, lastSaid f as = some (some v) ∧ q.strs.get f = some v
  double : ∀ f, HasArg p f .double → (lastSaid f as = none ∧ q.doubles.get f = p.doubles.get f) ∨
    ∃ v x, lastSaid f as = some (some v) ∧ Dbl.stod v = .ok x ∧ q.doubles.get f = some x
  other : ∀ f, (∀ k, ¬ HasArg p f k) → q.ints.get f = p.ints.get f ∧ q.strs.get f = p.strs.get f ∧ q.doubles.get f = p.doubles.get f

theorem Holds.nil (p : Parser D) : Holds p [] p :=
  ⟨rfl, fun _ _ => .inl ⟨rfl, rfl⟩, fun _ _ => ⟨rfl, .inl ⟨rfl, rfl⟩⟩, fun _ _ => .inl ⟨rfl, rfl⟩, fun _ _ => .inl ⟨rfl, rfl⟩, fun _ _ => ⟨rfl, rfl, rfl⟩⟩

theorem Holds.step {p p' q : Parser D} {f : Str} {w : Option Str} {as : List (Str × Option Str)} (o : Orderly p) (same : SameSetup p p')
    (h : Holds p' as q) {k : ArgKind} (hk : HasArg p f k) (sizes : p'.sizes = p.sizes)
    (ints : ∀ g, g ≠ f → p'.ints.get g = p.ints.get g) (strs : ∀ g, g ≠ f → p'.strs.get g = p.strs.get g)
    (doubles : ∀ g, g ≠ f → p'.doubles.get g = p.doubles.get g)
    (self : match k with
      | .int => ∃ v n, w = some v ∧ stoi v = .ok n ∧ p'.ints.get f = some n
      | .switch => w = none ∧ p'.ints.get f = some 1 ∧ p'.strs.get f = p.strs.get f
      | .double => ∃ v x, w = some v ∧ Dbl.stod v = .ok x ∧ p'.doubles.get f = some x
      | _ => ∃ v, w = some v ∧ p'.strs.get f = some v) : Holds p ((f, w) :: as) q := by
  have cons : ∀ g, g ≠ f → lastSaid g ((f, w) :: as) = lastSaid g as := fun g n => by rw [lastSaid_cons, if_neg (Ne.symm n)]
  have cons' : lastSaid f ((f, w) :: as) = some ((lastSaid f as).getD w) := by rw [lastSaid_cons, if_pos rfl]
  refine ⟨h.sizes.trans sizes, ?_, ?_, ?_, ?_, ?_⟩
  · intro g hg
    by_cases e : g = f
    · subst e
      obtain rfl := o.one _ _ _ hk hg
      obtain ⟨v, n, rfl, e1, e2⟩ := self
      right
      rcases h.int g ((same.kind _ _).2 hg) with ⟨a, b⟩ | ⟨v', n', a, b, c⟩
      · exact ⟨v, n, by rw [cons', a]; rfl, e1, by rw [b, e2]⟩
      · exact ⟨v', n', by rw [cons', a]; rfl, b, c⟩
    · rw [cons g e, ← ints g e]; exact h.int g ((same.kind _ _).2 hg)
  · intro g hg
    by_cases e : g = f
    · subst e
      obtain rfl := o.one _ _ _ hk hg
      obtain ⟨rfl, e1, e2⟩ := self
      obtain ⟨a, b⟩ := h.switch g ((same.kind _ _).2 hg)
      refine ⟨a.trans e2, .inr ?_⟩
      rcases b with ⟨b, c⟩ | ⟨b, c⟩
      · exact ⟨by rw [cons', b]; rfl, by rw [c, e1]⟩
      · exact ⟨by rw [cons', b]; rfl, c⟩
    · rw [cons g e, ← ints g e, ← strs g e]; exact h.switch g ((same.kind _ _).2 hg)
  · intro g hg
    have hg' : HasArg p' g .str ∨ HasArg p' g .file := hg.imp (same.kind _ _).2 (same.kind _ _).2
    by_cases e : g = f
    · subst e
      have self' : ∃ v, w = some v ∧ p'.strs.get g = some v := by
        rcases hg with hg | hg
        · obtain rfl := o.one _ _ _ hk hg; exact self
        · obtain rfl := o.one _ _ _ hk hg; exact self
      obtain ⟨v, rfl, e1⟩ := self'
      right
      rcases h.str g hg' with ⟨a, b⟩ | ⟨v', a, b⟩
      · exact ⟨v, by rw [cons', a]; rfl, by rw [b, e1]⟩
      · exact ⟨v', by rw [cons', a]; rfl, b⟩
    · rw [cons g e, ← strs g e]; exact h.str g hg'
  · intro g hg
    by_cases e : g = f
    · subst e
      obtain rfl := o.one _ _ _ hk hg
      obtain ⟨v, n, rfl, e1, e2⟩ := self
      right
      rcases h.double g ((same.kind _ _).2 hg) with ⟨a, b⟩ | ⟨v', n', a, b, c⟩
      · exact ⟨v, n, by rw [cons', a]; rfl, e1, by rw [b, e2]⟩
      · exact ⟨v', n', by rw [cons', a]; rfl, b, c⟩
    · rw [cons g e, ← doubles g e]; exact h.double g ((same.kind _ _).2 hg)
  · intro g hg
    have e : g ≠ f := by rintro rfl; exact hg _ hk
    have := h.other g (fun k hk => hg k ((same.kind _ _).1 hk))
    rw [ints g e, strs g e, doubles g e] at this
    exact this

omit [Dbl D] in
theorem switch_words {v : Str} {on : Bool} (h : positive v = .ok on) : v ∉ infoTokens ∧ v ∉ versionTokens := by
  unfold positive at h
  split at h
  · rename_i h'; rcases h' with rfl | rfl | rfl <;> decide
  · split at h
    · rename_i h'; rcases h' with rfl | rfl | rfl <;> decide
    · cases h

omit [Dbl D] in
theorem not_next {p : Parser D} {v : Str} {ts : List Str} (o : Orderly p) (h : nextIsFlag p (v :: ts) = false) (k : ArgKind) :
    ¬ HasArg p (resolve p v) k := by
  intro ha
  simp only [nextIsFlag, List.any_eq_false, Bool.or_eq_true, beq_iff_eq, not_or] at h
  rcases stands_resolve o ha with ⟨a, -⟩ | ⟨-, d, b⟩
  · obtain ⟨x, hx⟩ := Option.ne_none_iff_exists'.1 a
    exact (h _ (Map.get_mem hx)).1 rfl
  · exact (h _ (Map.get_mem b)).2 rfl

theorem took_has {fs : FS} {p q : Parser D} {f : Str} {rest : List Str} {used : Nat}
    (h : Took fs p f rest q used ∨ TookDouble p f rest q used) : ∃ k, HasArg p f k := by
  rcases h with h | h
  · cases h with
    | str h => exact ⟨.str, by simp [HasArg, h]⟩
    | switch h => exact ⟨.switch, by simp [HasArg, h]⟩
    | switchVal h => exact ⟨.switch, by simp [HasArg, h]⟩
    | int h => exact ⟨.int, by simp [HasArg, h]⟩
    | file h => exact ⟨.file, by simp [HasArg, h]⟩
  · obtain ⟨a, _, _, _, _, h, _⟩ := h
    exact ⟨.double, by simp [HasArg, h]⟩

theorem loop_says {fs : FS} {size : Nat} (n : Nat) : ∀ (args : List Str), args.length ≤ n → ∀ (p : Parser D) (allowed : Nat) (q : Parser D), Orderly p →
    parseLoop fs size 0 allowed p args = .ok q → ∃ as, Says p args as ∧ SameSetup p q ∧ Holds p as q := by
  induction n with
  | zero =>
    intro args hl p allowed q o h
    cases args with
    | nil => cases h; exact ⟨[], .nil, .refl _, .nil _⟩
    | cons a b => simp at hl
  | succ n ih =>
    intro args hl p allowed q o h
    cases args with
    | nil => cases h; exact ⟨[], .nil, .refl _, .nil _⟩
    | cons t ts =>
      have hl' : ts.length ≤ n := by simpa using hl
      unfold parseLoop at h
      split at h
      · rename_i ht
        split at h
        · cases h
        · obtain ⟨as, a, b, c⟩ := ih ts hl' p _ q o h
          exact ⟨as, .info (by rcases ht with rfl | rfl <;> decide) a, b, c⟩
      · rename_i ht
        split at h
        · cases h
        · rename_i hv
          split at h
          · rename_i hc
            split at h
            · cases h
            · obtain ⟨as, a, b, c⟩ := ih ts hl' p _ q o h
              exact ⟨as, .info (by rcases hc with rfl | rfl <;> decide) a, b, c⟩
          · rename_i hc
            have hi : t ∉ infoTokens := by
              simp only [infoTokens, List.mem_cons, List.not_mem_nil, or_false]
              rintro (e | e | e | e)
              · exact ht (.inl e)
              · exact ht (.inr e)
              · exact hc (.inl e)
              · exact hc (.inr e)
            have hv' : t ∉ versionTokens := by simpa [versionTokens] using hv
            obtain ⟨⟨p', used⟩, e, h⟩ := Res.bind_eq_ok.1 h
            dsimp only at h
            have took := parseArg_took o e
            obtain ⟨k0, hk0⟩ := took_has took
            have hs := stands_resolve o hk0
            generalize resolve p t = f at took hk0 hs
            rcases took with took | ⟨a, a', v, x, ts', ha, rfl, hx, rfl, rfl⟩
            · cases took with
              | @str a a' v ts' ha =>
                have hk : HasArg p f .str := by simp [HasArg, ha]
                have same : SameSetup p { p with strArg := p.strArg.set f a', strs := p.strs.set f v } :=
                  ⟨rfl, fun g k => by cases k <;> simp only [HasArg] <;> exact get_set_ne_none (by rw [ha]; simp)⟩
                obtain ⟨as, b, c, d⟩ := ih ts' (by simp at hl'; omega) _ _ _ (same.orderly o) h
                exact ⟨(f, some v) :: as, .value hi hv' hs hk (by decide) (same.says b), same.trans c,
                  d.step o same hk rfl (fun _ _ => rfl) (fun g n => by simp [n]) (fun _ _ => rfl) ⟨v, rfl, by simp⟩⟩
              | @switch a _ ha =>
                have hk : HasArg p f .switch := by simp [HasArg, ha]
                have same : SameSetup p { p with ints := p.ints.set f 1 } := ⟨rfl, fun g k => Iff.rfl⟩
                obtain ⟨as, b, c, d⟩ := ih ts hl' _ _ _ (same.orderly o) h
                exact ⟨(f, none) :: as, .switch hi hv' hs hk (same.says b), same.trans c,
                  d.step o same hk rfl (fun g n => by simp [n]) (fun _ _ => rfl) (fun _ _ => rfl) ⟨rfl, by simp, rfl⟩⟩
              | @switchVal a a' v ts' on ha hn hp =>
                exfalso
                have same : SameSetup p { p with switchArg := p.switchArg.set f a', strs := p.strs.set f v, ints := p.ints.set f (if on then 1 else 0) } :=
                  ⟨rfl, fun g k => by cases k <;> simp only [HasArg] <;> exact get_set_ne_none (by rw [ha]; simp)⟩
                obtain ⟨w1, w2⟩ := switch_words hp
                simp only [infoTokens, versionTokens, List.mem_cons, List.not_mem_nil, or_false, not_or] at w1 w2
                unfold parseLoop at h
                rw [if_neg (by rintro (e | e); exacts [w1.1 e, w1.2.1 e]), if_neg (by rintro (e | e); exacts [w2.1 e, w2.2 e]),
                  if_neg (by rintro (e | e); exacts [w1.2.2.1 e, w1.2.2.2 e])] at h
                obtain ⟨⟨p'', used⟩, e, h⟩ := Res.bind_eq_ok.1 h
                obtain ⟨k, hk⟩ := took_has (parseArg_took (same.orderly o) e)
                exact not_next (same.orderly o) (ts := ts') (by rw [← hn]; rfl) k hk
              | @int a a' v n ts' ha hn =>
                have hk : HasArg p f .int := by simp [HasArg, ha]
                have same : SameSetup p { p with intArg := p.intArg.set f a', ints := p.ints.set f n } :=
                  ⟨rfl, fun g k => by cases k <;> simp only [HasArg] <;> exact get_set_ne_none (by rw [ha]; simp)⟩
                obtain ⟨as, b, c, d⟩ := ih ts' (by simp at hl'; omega) _ _ _ (same.orderly o) h
                exact ⟨(f, some v) :: as, .value hi hv' hs hk (by decide) (same.says b), same.trans c,
                  d.step o same hk rfl (fun g n => by simp [n]) (fun _ _ => rfl) (fun _ _ => rfl) ⟨v, n, rfl, hn, by simp⟩⟩
              | @file a a' v ts' ha =>
                have hk : HasArg p f .file := by simp [HasArg, ha]
                have same : SameSetup p { p with fileArg := p.fileArg.set f a', strs := p.strs.set f v } :=
                  ⟨rfl, fun g k => by cases k <;> simp only [HasArg] <;> exact get_set_ne_none (by rw [ha]; simp)⟩
                obtain ⟨as, b, c, d⟩ := ih ts' (by simp at hl'; omega) _ _ _ (same.orderly o) h
                exact ⟨(f, some v) :: as, .value hi hv' hs hk (by decide) (same.says b), same.trans c,
                  d.step o same hk rfl (fun _ _ => rfl) (fun g n => by simp [n]) (fun _ _ => rfl) ⟨v, rfl, by simp⟩⟩
            · have hk : HasArg p f .double := by simp [HasArg, ha]
              have same : SameSetup p { p with doubleArg := p.doubleArg.set f a', doubles := p.doubles.set f x } :=
                ⟨rfl, fun g k => by cases k <;> simp only [HasArg] <;> exact get_set_ne_none (by rw [ha]; simp)⟩
              obtain ⟨as, b, c, d⟩ := ih ts' (by simp at hl'; omega) _ _ _ (same.orderly o) h
              exact ⟨(f, some v) :: as, .value hi hv' hs hk (by decide) (same.says b), same.trans c,
                d.step o same hk rfl (fun _ _ => rfl) (fun _ _ => rfl) (fun g n => by simp [n]) ⟨v, x, rfl, hx, by simp⟩⟩

omit [Dbl D] in
theorem intText_of_stoi {v : Str} {n : Int} (h : stoi v = .ok n) : IntText v n := by
  obtain ⟨h1, h2, h3⟩ := C67_stoi v
  by_cases e : ∃ m, IntText v m
  · obtain ⟨m, hm⟩ := e
    by_cases r : -2 ^ 31 ≤ m ∧ m < 2 ^ 31
    · rw [h1 m hm r] at h; cases h; exact hm
    · rw [h2 m hm r] at h; cases h
  · rw [h3 e] at h; cases h

/-- C102: after reading a command line with any parser, each flag holds the last value given for it, or else the value it had before (its
default); switches hold 1 once given (ON, unless a text was set as their default) and never take a value; `size_t` values stay what they were set to. -/
theorem C102_values (fs : FS) (p q : Parser D) (args : List Str) (o : Orderly p) (h : parse fs p args = .ok q) :
    ∃ as, Says p args as ∧ (∀ bs, Says p args bs → bs = as) ∧
      (∀ f, HasArg p f .int →
        (∀ v, lastSaid f as = some v → ∃ s n, v = some s ∧ IntText s n ∧ getInt q f = .ok n) ∧ (lastSaid f as = none → getInt q f = getInt p f)) ∧
      (∀ f, HasArg p f .str ∨ HasArg p f .file →
        (∀ v, lastSaid f as = some v → ∃ s, v = some s ∧ getStr q f = .ok s) ∧ (lastSaid f as = none → getStr q f = getStr p f)) ∧
      (∀ f, HasArg p f .double →
        (∀ v, lastSaid f as = some v → ∃ s x, v = some s ∧ Dbl.stod s = .ok x ∧ getDouble q f = .ok x) ∧
        (lastSaid f as = none → getDouble q f = getDouble p f)) ∧
      (∀ f, HasArg p f .switch →
        (∀ v, lastSaid f as = some v → v = none ∧ getInt q f = .ok 1 ∧ (p.strs.get f = none → getStr q f = .ok (lit "ON"))) ∧
        (lastSaid f as = none → getInt q f = getInt p f ∧ getStr q f = getStr p f)) ∧
      (∀ f, getSize q f = getSize p f) ∧
      (∀ f, (∀ k, ¬ HasArg p f k) → getInt q f = getInt p f ∧ getStr q f = getStr p f ∧ getDouble q f = getDouble p f) := by
  unfold parse at h
  split at h
  · cases h
  obtain ⟨q', e, h⟩ := Res.bind_eq_ok.1 h
  obtain ⟨-, -, h⟩ := Res.bind_eq_ok.1 h
  cases h
  obtain ⟨as, hs, same, hh⟩ := loop_says args.length args (Nat.le_refl _) p _ q o e
  have no : ∀ {f k k'}, HasArg p f k → k ≠ k' → ¬ HasArg p f k' := fun a n b => n (o.one _ _ _ a b)
  refine ⟨as, hs, fun bs hb => hb.unique o hs, ?_, ?_, ?_, ?_, ?_, ?_⟩
  · intro f hf
    have s1 : p.switchArg.get f = none := not_not.1 (no hf (k' := .switch) (by decide))
    have s2 : q.switchArg.get f = none := not_not.1 (fun a => no hf (k' := .switch) (by decide) ((same.kind f .switch).1 a))
    rcases hh.int f hf with ⟨a, b⟩ | ⟨v, n, a, b, c⟩
    · refine ⟨fun v hv => (by rw [a] at hv; cases hv), fun _ => ?_⟩
      simp only [getInt, b, s1, s2]
    · refine ⟨fun v' hv => ?_, fun hn => (by rw [a] at hn; cases hn)⟩
      rw [a] at hv; cases hv
      exact ⟨v, n, rfl, intText_of_stoi b, by simp only [getInt, c]⟩
  · intro f hf
    have s1 : p.switchArg.get f = none := by
      rcases hf with hf | hf
      · exact not_not.1 (no hf (k' := .switch) (by decide))
      · exact not_not.1 (no hf (k' := .switch) (by decide))
    have s2 : q.switchArg.get f = none := not_not.1 (fun a => ((same.kind f .switch).1 a) s1)
    rcases hh.str f hf with ⟨a, b⟩ | ⟨v, a, c⟩
    · refine ⟨fun v hv => (by rw [a] at hv; cases hv), fun _ => ?_⟩
      simp only [getStr, b, s1, s2]
    · refine ⟨fun v' hv => ?_, fun hn => (by rw [a] at hn; cases hn)⟩
      rw [a] at hv; cases hv
      exact ⟨v, rfl, by simp only [getStr, c]⟩
  · intro f hf
    rcases hh.double f hf with ⟨a, b⟩ | ⟨v, x, a, b, c⟩
    · refine ⟨fun v hv => (by rw [a] at hv; cases hv), fun _ => ?_⟩
      simp only [getDouble, b]
    · refine ⟨fun v' hv => ?_, fun hn => (by rw [a] at hn; cases hn)⟩
      rw [a] at hv; cases hv
      exact ⟨v, x, rfl, b, by simp only [getDouble, c]⟩
  · intro f hf
    obtain ⟨x, hx⟩ := Option.ne_none_iff_exists'.1 hf
    obtain ⟨y, hy⟩ := Option.ne_none_iff_exists'.1 ((same.kind f .switch).2 hf)
    obtain ⟨s, ⟨a, b⟩ | ⟨a, b⟩⟩ := hh.switch f hf
    · refine ⟨fun v hv => (by rw [a] at hv; cases hv), fun _ => ?_⟩
      simp only [getInt, getStr, b, s, hx, hy]
      cases p.ints.get f <;> cases p.strs.get f <;> exact ⟨rfl, rfl⟩
    · refine ⟨fun v' hv => ?_, fun hn => (by rw [a] at hn; cases hn)⟩
      rw [a] at hv; cases hv
      exact ⟨rfl, by simp only [getInt, b], fun hn => by simp only [getStr, s, hn, hy, b, positiveInt]; rfl⟩
  · intro f; unfold getSize; rw [hh.sizes]
  · intro f hf
    have s1 : p.switchArg.get f = none := not_not.1 (hf .switch)
    have s2 : q.switchArg.get f = none := not_not.1 (fun a => hf .switch ((same.kind f .switch).1 a))
    obtain ⟨a, b, c⟩ := hh.other f hf
    exact ⟨by simp only [getInt, a, s1, s2], by simp only [getStr, b, s1, s2], by simp only [getDouble, c]⟩

omit [Dbl D] in
/-- C102 (defaults): what is set with `setFlagDefaultValue` is read back, and reading a command line is not affected otherwise: the flags and
arguments are as before, and so are the values of other flags. -/
theorem C102_defaults (p : Parser D) (f : Str) (n : Int) (k : Nat) (x : D) (s : Str) :
    getInt (setDefaultInt p f n) f = .ok n ∧ getSize (setDefaultSize p f k) f = .ok k ∧ getDouble (setDefaultDouble p f x) f = .ok x ∧
    getStr (setDefaultStr p f s) f = .ok s ∧
    (∀ q ∈ [setDefaultInt p f n, setDefaultSize p f k, setDefaultDouble p f x, setDefaultStr p f s],
      (Orderly q ↔ Orderly p) ∧ (∀ args as, Says q args as ↔ Says p args as) ∧
      ∀ g, g ≠ f → getInt q g = getInt p g ∧ getSize q g = getSize p g ∧ getDouble q g = getDouble p g ∧ getStr q g = getStr p g) := by
  refine ⟨by simp [getInt, setDefaultInt], by simp [getSize, setDefaultSize], by simp [getDouble, setDefaultDouble], by simp [getStr, setDefaultStr], ?_⟩
  have key : ∀ q : Parser D, SameSetup p q → SameSetup q p → (Orderly q ↔ Orderly p) ∧ (∀ args as, Says q args as ↔ Says p args as) :=
    fun q a b => ⟨⟨b.orderly, a.orderly⟩, fun args as => ⟨a.says, b.says⟩⟩
  intro q hq
  simp only [List.mem_cons, List.not_mem_nil, or_false] at hq
  rcases hq with rfl | rfl | rfl | rfl
  · obtain ⟨a, b⟩ := key (setDefaultInt p f n) ⟨rfl, fun _ k => by cases k <;> exact Iff.rfl⟩ ⟨rfl, fun _ k => by cases k <;> exact Iff.rfl⟩
    exact ⟨a, b, fun g hg => ⟨by simp [getInt, setDefaultInt, hg], rfl, rfl, by simp [getStr, setDefaultInt, hg]⟩⟩
  · obtain ⟨a, b⟩ := key (setDefaultSize p f k) ⟨rfl, fun _ k => by cases k <;> exact Iff.rfl⟩ ⟨rfl, fun _ k => by cases k <;> exact Iff.rfl⟩
    exact ⟨a, b, fun g hg => ⟨rfl, by simp [getSize, setDefaultSize, hg], rfl, rfl⟩⟩
  · obtain ⟨a, b⟩ := key (setDefaultDouble p f x) ⟨rfl, fun _ k => by cases k <;> exact Iff.rfl⟩ ⟨rfl, fun _ k => by cases k <;> exact Iff.rfl⟩
    exact ⟨a, b, fun g hg => ⟨rfl, rfl, by simp [getDouble, setDefaultDouble, hg], rfl⟩⟩
  · obtain ⟨a, b⟩ := key (setDefaultStr p f s) ⟨rfl, fun _ k => by cases k <;> exact Iff.rfl⟩ ⟨rfl, fun _ k => by cases k <;> exact Iff.rfl⟩
    exact ⟨a, b, fun g hg => ⟨by simp [getInt, setDefaultStr, hg], rfl, rfl, by simp [getStr, setDefaultStr, hg]⟩⟩

omit [Dbl D] in
/-- C102 (defaults of switches): a default given as a number is also read as text and the other way round, as long as only one of the two was
set. -/
theorem C102_switch_default (p : Parser D) (f : Str) (hf : HasArg p f .switch) :
    (p.strs.get f = none → ∀ n, getStr (setDefaultInt p f n) f = .ok (if n = 1 then (lit "ON") else (lit "OFF"))) ∧
    (p.ints.get f = none → ∀ s, getInt (setDefaultStr p f s) f =
      if s ∈ [(lit "ON"), (lit "TRUE"), (lit "1")] then .ok 1 else if s ∈ [(lit "OFF"), (lit "FALSE"), (lit "0")] then .ok 0 else .throw .invalidArgument) := by
  obtain ⟨x, hx⟩ := Option.ne_none_iff_exists'.1 hf
  constructor
  · intro h n
    simp [getStr, setDefaultInt, h, hx, positiveInt]
  · intro h s
    simp only [getInt, setDefaultStr, h, hx, Map.get_set_self, positive, List.mem_cons, List.not_mem_nil, or_false]
    split
    · rfl
    · split <;> rfl

omit [Dbl D] in
/-- C102 (no value): asking for a value that was neither given nor set as a default throws `invalid_argument`, for every kind of value. -/
theorem C102_unset (p : Parser D) (f : Str) :
    (p.doubles.get f = none → getDouble p f = .throw .invalidArgument) ∧ (p.sizes.get f = none → getSize p f = .throw .invalidArgument) ∧
    (p.ints.get f = none → p.strs.get f = none → getInt p f = .throw .invalidArgument ∧ getStr p f = .throw .invalidArgument) ∧
    (¬ HasArg p f .switch → (p.ints.get f = none → getInt p f = .throw .invalidArgument) ∧ (p.strs.get f = none → getStr p f = .throw .invalidArgument)) := by
  refine ⟨fun h => by simp [getDouble, h], fun h => by simp [getSize, h], fun h h' => ?_, fun h => ?_⟩
  · constructor
    · simp only [getInt, h, h']; cases p.switchArg.get f <;> rfl
    · simp only [getStr, h, h']; cases p.switchArg.get f <;> rfl
  · have n : p.switchArg.get f = none := not_not.1 h
    exact ⟨fun e => by simp [getInt, e, n], fun e => by simp [getStr, e, n]⟩

end

/-! A parser with a flag of each kind, and a command line. -/
section
variable {D : Type} [Dbl D]

theorem get_key {V : Type} {m : Map V} {f : Str} (h : m.get f ≠ none) : f ∈ m.map (·.1) := by
  obtain ⟨v, hv⟩ := Option.ne_none_iff_exists'.1 h
  exact List.mem_map.2 ⟨_, Map.get_mem hv, rfl⟩

/-- A parser for the example: two flags with a number, one with text, a switch. -/
def toolParser : Res (Parser D) := do
  let p ← newParser [[(lit "--depth"), (lit "-d")], [(lit "--width"), (lit "-w")], [(lit "--name"), (lit "-n")], [(lit "--quiet"), (lit "-q")]]
  let p ← addFlagArg p (lit "--depth") (lit "ARGUMENT_INT")
  let p ← addFlagArg p (lit "--width") (lit "ARGUMENT_INT")
  let p ← addFlagArg p (lit "--name") (lit "ARGUMENT_STRING")
  let p ← addFlagArg p (lit "--quiet") (lit "ARGUMENT_SWITCH")
  .ok (setDefaultInt (setDefaultSize p (lit "--seed") 7) (lit "--width") 80)

theorem orderly_of {p : Parser D} (h1 : p.strArg.map (·.1) = [(lit "--name")]) (h2 : p.switchArg.map (·.1) = [(lit "--quiet")])
    (h3 : p.intArg.map (·.1) = [(lit "--depth"), (lit "--width")]) (h4 : p.doubleArg = []) (h5 : p.fileArg = [])
    (h6 : p.flags.map (fun f => (f.1, f.2.1)) = [((lit "--depth"), (lit "-d")), ((lit "--help"), (lit "-h")), ((lit "--name"), (lit "-n")),
      ((lit "--quiet"), (lit "-q")), ((lit "--width"), (lit "-w"))]) (h7 : ∀ f ∈ [(lit "--depth"), (lit "--width"), (lit "--name"), (lit "--quiet")], p.flags.get f ≠ none) :
    Orderly p := by
  have key : ∀ f k, HasArg p f k → (f, k) ∈ [((lit "--name"), ArgKind.str), ((lit "--quiet"), .switch), ((lit "--depth"), .int), ((lit "--width"), .int)] := by
    intro f k h
    cases k with
    | str => have := get_key h; rw [h1] at this; simp only [List.mem_singleton] at this; subst this; decide
    | switch => have := get_key h; rw [h2] at this; simp only [List.mem_singleton] at this; subst this; decide
    | int =>
      have := get_key h; rw [h3] at this; simp only [List.mem_cons, List.not_mem_nil, or_false] at this
      rcases this with rfl | rfl <;> decide
    | double => simp [HasArg, h4] at h
    | file => simp [HasArg, h5] at h
  have hn : p.flags.map (·.1) = [(lit "--depth"), (lit "--help"), (lit "--name"), (lit "--quiet"), (lit "--width")] := by
    have := congrArg (List.map Prod.fst) h6
    rw [List.map_map] at this
    exact this
  refine ⟨?_, ?_, ?_, ?_⟩
  · intro f k k' a b
    replace a := key _ _ a
    replace b := key _ _ b
    simp only [List.mem_cons, List.not_mem_nil, or_false, Prod.mk.injEq] at a b
    rcases a with ⟨rfl, rfl⟩ | ⟨rfl, rfl⟩ | ⟨rfl, rfl⟩ | ⟨rfl, rfl⟩ <;> rcases b with ⟨b, rfl⟩ | ⟨b, rfl⟩ | ⟨b, rfl⟩ | ⟨b, rfl⟩ <;>
      first | rfl | exact absurd b (by decide)
  · intro f k a
    apply h7
    replace a := key _ _ a
    simp only [List.mem_cons, List.not_mem_nil, or_false, Prod.mk.injEq] at a ⊢
    rcases a with ⟨rfl, rfl⟩ | ⟨rfl, rfl⟩ | ⟨rfl, rfl⟩ | ⟨rfl, rfl⟩ <;> simp
  · rw [hn]; decide
  · intro f f' s d d' a b
    replace a : (f, s) ∈ p.flags.map (fun f => (f.1, f.2.1)) := List.mem_map.2 ⟨_, Map.get_mem a, rfl⟩
    replace b : (f', s) ∈ p.flags.map (fun f => (f.1, f.2.1)) := List.mem_map.2 ⟨_, Map.get_mem b, rfl⟩
    rw [h6] at a b
    simp only [List.mem_cons, List.not_mem_nil, or_false, Prod.mk.injEq] at a b
    rcases a with ⟨rfl, rfl⟩ | ⟨rfl, rfl⟩ | ⟨rfl, rfl⟩ | ⟨rfl, rfl⟩ | ⟨rfl, rfl⟩ <;>
      rcases b with ⟨rfl, b⟩ | ⟨rfl, b⟩ | ⟨rfl, b⟩ | ⟨rfl, b⟩ | ⟨rfl, b⟩ <;> first | rfl | exact absurd b (by decide)

theorem toolParser_ok : ∃ p : Parser D, toolParser = .ok p ∧ Orderly p ∧ getInt p (lit "--width") = .ok 80 ∧ getSize p (lit "--seed") = .ok 7 ∧
    HasArg p (lit "--depth") .int ∧ HasArg p (lit "--width") .int ∧ HasArg p (lit "--name") .str ∧ HasArg p (lit "--quiet") .switch ∧
    ∃ q, parse (fun _ => false) p [(lit "-d"), (lit "3"), (lit "--name"), (lit "-w"), (lit "-q"), (lit "--depth"), (lit " 12")] = .ok q := by
  refine ⟨_, rfl, orderly_of rfl rfl rfl rfl rfl rfl ?_, rfl, rfl, (by intro h; cases h), (by intro h; cases h), (by intro h; cases h), (by intro h; cases h), _, rfl⟩
  intro f hf
  simp only [List.mem_cons, List.not_mem_nil, or_false] at hf
  rcases hf with rfl | rfl | rfl | rfl <;> exact (by intro h; cases h)

end
end Verif.Args
