import Verif.Props.ParserCopy
/-
Property C135, continued: programs of any length.
-/
namespace Verif.Args
section
variable {D : Type} [Dbl D]

omit [Dbl D] in
theorem sees_lt {w : World D} {i : Nat} : w.sees i ≠ none ↔ i < w.ps.length := by
  unfold World.sees
  rw [Ne, Option.map_eq_none_iff, List.getElem?_eq_none_iff]
  omega

omit [Dbl D] in
theorem Shares.lt {w : World D} {i j : Nat} {k : ArgKind} {f : Str} (h : Shares w i j k f) : i < w.ps.length ∧ j < w.ps.length := by
  obtain ⟨a, b, n, h1, h2, -, -⟩ := h
  exact ⟨(List.getElem?_eq_some_iff.1 h1).1, (List.getElem?_eq_some_iff.1 h2).1⟩

/-- No parser ever disappears. -/
theorem Step.longer {w w' : World D} {d : Deed D} (s : Step w d w') : w.ps.length ≤ w'.ps.length := by
  cases s <;> simp

theorem Later.longer {w w' : World D} {ds : List (Deed D)} (s : Later w ds w') : w.ps.length ≤ w'.ps.length := by
  induction s with
  | refl => exact Nat.le_refl _
  | step _ s ih => exact Nat.le_trans ih s.longer

/-- One deed that assigns to neither of two parsers. -/
theorem Step.shares {w w' : World D} (hw : Past w) {d : Deed D} (s : Step w d w') {i j : Nat} (hij : i ≠ j) (hi : i < w.ps.length) (hj : j < w.ps.length)
    (oi : ¬ d.overwrites i) (oj : ¬ d.overwrites j) (k : ArgKind) (f : Str) :
    (Shares w' i j k f → Shares w i j k f) ∧
    (Shares w i j k f → (k = .double → d ≠ .call i (.addFlagArg f (lit "ARGUMENT_DOUBLE")) ∧ d ≠ .call j (.addFlagArg f (lit "ARGUMENT_DOUBLE"))) → Shares w' i j k f) := by
  have s0 := s
  cases s with
  | make flags e =>
    have := (C135_make s0).2.2.2 i j hi hj k f
    exact ⟨this.1, fun h _ => this.2 h⟩
  | copy l e =>
    have := (C135_copy s0).2.2.2 i j hi hj k f
    exact ⟨this.1, fun h _ => this.2 h⟩
  | assign dst source e hd =>
    have := (C135_assign s0).2.2.2 i j (fun e => oi ⟨source, by rw [e]⟩) (fun e => oj ⟨source, by rw [e]⟩) k f
    exact ⟨this.1, fun h _ => this.2 h⟩
  | call l c e hc =>
    have := C135_shares hw s0 (sees_of e) hij k f
    refine ⟨fun h => (this.1 h).1, fun h hd => this.2 ⟨h, ?_⟩⟩
    rintro ⟨hl, rfl, hk, -⟩
    obtain ⟨h1, h2⟩ := hd hk
    rcases hl with rfl | rfl
    · exact h1 rfl
    · exact h2 rfl

/-- C135: what two parsers have in common they have in common for good, unless one of them is assigned to - or, if it is a double argument, it is added again. -/
theorem C135_lasting {w w' : World D} (hw : Past w) {ds : List (Deed D)} (l : Later w ds w') {i j : Nat} (hij : i ≠ j)
    (hd : ∀ d ∈ ds, ¬ d.overwrites i ∧ ¬ d.overwrites j) {k : ArgKind} {f : Str}
    (hk : k = .double → ∀ d ∈ ds, d ≠ .call i (.addFlagArg f (lit "ARGUMENT_DOUBLE")) ∧ d ≠ .call j (.addFlagArg f (lit "ARGUMENT_DOUBLE")))
    (s : Shares w i j k f) : Shares w' i j k f := by
  induction l with
  | refl => exact s
  | @step ds d v v' l st ih =>
    have := ih (fun d hd' => hd d (by simp [hd'])) (fun e d hd' => hk e d (by simp [hd']))
    refine (st.shares (hw.later l) hij this.lt.1 this.lt.2 (hd d (by simp)).1 (hd d (by simp)).2 k f).2 this fun e => hk e d (by simp)

/-- C135: and what two parsers do not have in common they never will, unless one of them is assigned to. -/
theorem C135_apart {w w' : World D} (hw : Past w) {ds : List (Deed D)} (l : Later w ds w') {i j : Nat} (hij : i ≠ j) (hi : i < w.ps.length) (hj : j < w.ps.length)
    (hd : ∀ d ∈ ds, ¬ d.overwrites i ∧ ¬ d.overwrites j) {k : ArgKind} {f : Str} (s : ¬ Shares w i j k f) : ¬ Shares w' i j k f := by
  induction l with
  | refl => exact s
  | @step ds d v v' l st ih =>
    have := ih (fun d hd' => hd d (by simp [hd']))
    have ln := l.longer
    exact fun h => this ((st.shares (hw.later l) hij (by omega) (by omega) (hd d (by simp)).1 (hd d (by simp)).2 k f).1 h)

/-- C135: from the moment of copying on, whatever is done with either: original and copy have the same argument for every flag that had one then, and for no other. -/
theorem C135_copied {w v w' : World D} (hw : Past w) {i : Nat} (s : Step w (.copy i) v) {ds : List (Deed D)} (l : Later v ds w')
    (hd : ∀ d ∈ ds, ¬ d.overwrites i ∧ ¬ d.overwrites w.ps.length) (hk : ∀ d ∈ ds, ∀ a f, d ≠ .call a (.addFlagArg f (lit "ARGUMENT_DOUBLE")))
    {p : Parser D} (hp : w.sees i = some p) (k : ArgKind) (f : Str) : Shares w' i w.ps.length k f ↔ HasArg p f k := by
  have hi : i < w.ps.length := sees_lt.1 (by rw [hp]; simp)
  have hv := hw.step s
  have h0 : Shares v i w.ps.length k f ↔ HasArg p f k := by rw [(C135_copy s).2.2.1 i hi, C135_self hw hp]
  have hn : w.ps.length < v.ps.length := by cases s; simp
  constructor
  · intro h
    rw [← h0]
    by_contra c
    exact C135_apart hv l (by omega) (by omega) hn hd c h
  · intro h
    exact C135_lasting hv l (by omega) hd (fun _ d hd' => ⟨hk d hd' _ _, hk d hd' _ _⟩) (h0.2 h)

/-- The parser is what it was but for the options of its arguments. -/
structure Untouched (q q' : Parser D) : Prop where
  flags : q'.flags = q.flags
  defaults : q'.defaultsSet = q.defaultsSet
  args : ∀ f k, HasArg q' f k ↔ HasArg q f k
  ints : ∀ f, getInt q' f = getInt q f
  doubles : ∀ f, getDouble q' f = getDouble q f
  strs : ∀ f, getStr q' f = getStr q f
  sizes : ∀ f, getSize q' f = getSize q f

omit [Dbl D] in
theorem Untouched.refl (q : Parser D) : Untouched q q := ⟨rfl, rfl, fun _ _ => Iff.rfl, fun _ => rfl, fun _ => rfl, fun _ => rfl, fun _ => rfl⟩

omit [Dbl D] in
theorem Untouched.trans {a b c : Parser D} (h : Untouched a b) (h' : Untouched b c) : Untouched a c :=
  ⟨h'.flags.trans h.flags, h'.defaults.trans h.defaults, fun f k => (h'.args f k).trans (h.args f k), fun f => (h'.ints f).trans (h.ints f),
    fun f => (h'.doubles f).trans (h.doubles f), fun f => (h'.strs f).trans (h.strs f), fun f => (h'.sizes f).trans (h.sizes f)⟩

theorem has_of_keys {A : Type} {m m' : Map A} (h : m'.map (·.1) = m.map (·.1)) (f : Str) : m'.get f ≠ none ↔ m.get f ≠ none := by
  have h1 := keys_get m f
  have h2 := keys_get m' f
  rw [h, ← h1] at h2
  rw [← Option.isSome_iff_ne_none, ← Option.isSome_iff_ne_none, h2]

theorem untouched_call {w w' : World D} (hw : Past w) {i j : Nat} (hij : j ≠ i) {c : Call D} (s : Step w (.call i c) w') {q : Parser D} (hq : w.sees j = some q) :
    ∃ q', w'.sees j = some q' ∧ Untouched q q' := by
  obtain ⟨p', q', -, h2, b⟩ := C135_others hw hij s hq
  obtain ⟨k1, k2, k3, k4, k5⟩ := keys_kept hw hij s hq h2
  have sw := has_of_keys k2
  refine ⟨q', h2, b.flags, b.defaults, fun f k => ?_, fun f => ?_, fun f => ?_, fun f => ?_, fun f => ?_⟩
  · cases k with
    | str => exact has_of_keys k1 f
    | switch => exact has_of_keys k2 f
    | int => exact has_of_keys k3 f
    | double => exact has_of_keys k4 f
    | file => exact has_of_keys k5 f
  · unfold getInt
    rw [b.ints, b.strs]
    have := sw f
    cases h : q.switchArg.get f with
    | none =>
      rw [h] at this
      have : q'.switchArg.get f = none := by by_contra c; exact this.1 c rfl
      rw [this]
    | some a =>
      rw [h] at this
      obtain ⟨a', ha⟩ := Option.ne_none_iff_exists'.1 (this.2 (by simp))
      rw [ha]
      cases q.ints.get f with
      | some v => rfl
      | none => cases q.strs.get f <;> rfl
  · unfold getDouble; rw [b.doubles]
  · unfold getStr
    rw [b.ints, b.strs]
    have := sw f
    cases h : q.switchArg.get f with
    | none =>
      rw [h] at this
      have : q'.switchArg.get f = none := by by_contra c; exact this.1 c rfl
      rw [this]
    | some a =>
      rw [h] at this
      obtain ⟨a', ha⟩ := Option.ne_none_iff_exists'.1 (this.2 (by simp))
      rw [ha]
      cases q.strs.get f with
      | some v => rfl
      | none => cases q.ints.get f <;> rfl
  · unfold getSize; rw [b.sizes]

/-- C135: a parser's flags, values and defaults, and which flags have arguments, change only by calls on it and by assigning to it. -/
theorem C135_values {w w' : World D} (hw : Past w) {ds : List (Deed D)} (l : Later w ds w') {j : Nat} (hd : ∀ d ∈ ds, ¬ d.overwrites j ∧ ¬ d.calls j)
    {q : Parser D} (hq : w.sees j = some q) : ∃ q', w'.sees j = some q' ∧ Untouched q q' := by
  induction l with
  | refl => exact ⟨q, hq, .refl q⟩
  | @step ds d v v' l s ih =>
    obtain ⟨q1, h1, u1⟩ := ih (fun d hd' => hd d (by simp [hd']))
    obtain ⟨d1, d2⟩ := hd d (by simp)
    have hj : j < v.ps.length := sees_lt.1 (by rw [h1]; simp)
    have s0 := s
    cases s with
    | make flags e => exact ⟨q1, by rw [(C135_make s0).2.1 j hj]; exact h1, u1⟩
    | copy i e => exact ⟨q1, by rw [(C135_copy s0).2.1 j hj]; exact h1, u1⟩
    | assign dst source e hdst => exact ⟨q1, by rw [(C135_assign s0).2.1 j (fun e => d1 ⟨source, by rw [e]⟩)]; exact h1, u1⟩
    | call i c e hc =>
      obtain ⟨q2, h2, u2⟩ := untouched_call (hw.later l) (fun e => d2 ⟨c, by rw [e]⟩) s0 h1
      exact ⟨q2, h2, u1.trans u2⟩

/-- C135: and if it shares nothing, neither do its options: it is exactly what it was. -/
theorem C135_unshared {w w' : World D} (hw : Past w) {i j : Nat} (hij : j ≠ i) {c : Call D} (s : Step w (.call i c) w') (hn : ∀ k f, ¬ Shares w i j k f) :
    w'.sees j = w.sees j := by
  cases hq : w.sees j with
  | none =>
    have : ¬ j < w.ps.length := fun h => sees_lt.2 h hq
    by_contra c'
    apply this
    have := sees_lt.1 c'
    cases s with
    | call => simpa using this
  | some q =>
    obtain ⟨p', q', h1, h2, b⟩ := C135_others hw hij s hq
    rw [h2]
    obtain ⟨k1, k2, k3, k4, k5⟩ := keys_kept hw hij s hq h2
    have ok := (C135_reached hw hq).argsOk
    have no : ∀ k f, ¬ Shares w' i j k f := by
      intro k f h
      cases s with
      | call _ _ e hc => exact hn k f ((C135_shares hw (.call _ _ e hc) (sees_of e) (Ne.symm hij) k f).1 h).1
    have e1 : q'.strArg = q.strArg := map_ext (by rw [k1]; exact ok.strs.sorted) ok.strs.sorted fun f => (b.str f).2 (no _ f)
    have e2 : q'.switchArg = q.switchArg := map_ext (by rw [k2]; exact ok.switches.sorted) ok.switches.sorted fun f => (b.switch f).2 (no _ f)
    have e3 : q'.intArg = q.intArg := map_ext (by rw [k3]; exact ok.ints.sorted) ok.ints.sorted fun f => (b.int f).2 (no _ f)
    have e4 : q'.doubleArg = q.doubleArg := map_ext (by rw [k4]; exact ok.doubles.sorted) ok.doubles.sorted fun f => (b.double f).2 (no _ f)
    have e5 : q'.fileArg = q.fileArg := map_ext (by rw [k5]; exact ok.files.sorted) ok.files.sorted fun f => (b.file f).2 (no _ f)
    obtain ⟨a1, a2, a3, a4, a5, b1, b2, b3, b4, b5, b6⟩ := q
    obtain ⟨c1, c2, c3, c4, c5, d1, d2, d3, d4, d5, d6⟩ := q'
    have f1 := b.flags
    have f2 := b.defaults
    have f3 := b.ints
    have f4 := b.doubles
    have f5 := b.strs
    have f6 := b.sizes
    simp only at e1 e2 e3 e4 e5 f1 f2 f3 f4 f5 f6
    subst e1 e2 e3 e4 e5 f1 f2 f3 f4 f5 f6
    rfl

/-- C135: what is allocated, and never freed: constructing, copying and assigning allocate no argument, a call one or none. -/
theorem C135_objects {w w' : World D} (hw : Past w) {d : Deed D} (s : Step w d w') :
    (w'.objects = w.objects ∨ w'.objects = w.objects + 1) ∧
    (w'.objects = w.objects + 1 ↔ ∃ i c p, d = .call i c ∧ w.sees i = some p ∧ Allocates p c) := by
  have no : w'.objects = w.objects → (∀ i c, d ≠ .call i c) → (w'.objects = w.objects ∨ w'.objects = w.objects + 1) ∧
      (w'.objects = w.objects + 1 ↔ ∃ i c p, d = .call i c ∧ w.sees i = some p ∧ Allocates p c) :=
    fun e hd => ⟨.inl e, fun h => by omega, fun ⟨i, c, _, h, _⟩ => absurd h (hd i c)⟩
  cases s with
  | make flags e => exact no rfl (by simp)
  | copy i e => exact no rfl (by simp)
  | assign dst source e hd => exact no rfl (by simp)
  | @call h i c e hc =>
    obtain ⟨own, -, -, t⟩ := hw.sound.tells e c
    have hcount : World.objects (⟨(c.onMem ⟨w.st, h⟩).1.st, w.ps.set i (c.onMem ⟨w.st, h⟩).1.h⟩ : World D) = w.objects +
      (open Classical in if Allocates (InMem.seen ⟨w.st, h⟩) c then 1 else 0) := t.goes.count
    rw [hcount]
    by_cases a : Allocates (InMem.seen ⟨w.st, h⟩) c
    · rw [if_pos a]
      exact ⟨.inr rfl, fun _ => ⟨i, c, _, rfl, sees_of e, a⟩, fun _ => rfl⟩
    · rw [if_neg a]
      refine ⟨.inl rfl, fun h => by omega, ?_⟩
      rintro ⟨i', c', p, h1, h2, h3⟩
      cases h1
      obtain rfl := Option.some.inj (h2.symm.trans (sees_of e))
      exact absurd h3 a

/-- C135: so there are never fewer. -/
theorem C135_leak {w w' : World D} (hw : Past w) {ds : List (Deed D)} (l : Later w ds w') : w.objects ≤ w'.objects := by
  induction l with
  | refl => exact Nat.le_refl _
  | @step ds d v v' l s ih =>
    have := (C135_objects (hw.later l) s).1
    omega

end
end Verif.Args
