import Verif.ParserCopySet
/-
Lemmas for C135: programs with several parsers.
-/
namespace Verif.Args

section
variable {D : Type} [Dbl D]

/-- Every pointer of every parser leads to an object made for that flag. -/
def Sound (w : World D) : Prop := ∃ own, (∀ h ∈ w.ps, Fits' own h) ∧ Sized own w.st

omit [Dbl D] in
theorem new_empty {flags : List (List Str)} {p : Parser D} (e : newParser flags = .ok p) :
    p.strArg = [] ∧ p.switchArg = [] ∧ p.intArg = [] ∧ p.doubleArg = [] ∧ p.fileArg = [] := by
  unfold newParser at e
  refine foldlM_inv (P := fun p : Parser D => p.strArg = [] ∧ p.switchArg = [] ∧ p.intArg = [] ∧ p.doubleArg = [] ∧ p.fileArg = []) ?_
    ⟨rfl, rfl, rfl, rfl, rfl⟩ e
  intro p fl q h e
  unfold addFlag at e
  split at e
  · cases e
  · obtain ⟨⟨dflt, l⟩, -, e⟩ := Res.bind_eq_ok.1 e
    simp only at e
    split at e
    · cases e
    · cases e; exact h

omit [Dbl D] in
theorem new_seen {flags : List (List Str)} {h : Handle D} (e : newParserH flags = .ok h) (st : Store D) :
    newParser flags = .ok (InMem.seen ⟨st, h⟩) ∧ ∀ k, h.map k = [] := by
  unfold newParserH at e
  obtain ⟨p, e1, e2⟩ := Res.bind_eq_ok.1 e
  obtain ⟨h1, h2, h3, h4, h5⟩ := new_empty e1
  cases e2
  refine ⟨?_, fun k => by cases k <;> rfl⟩
  rw [e1]
  obtain ⟨a1, a2, a3, a4, a5, b1, b2, b3, b4, b5, b6⟩ := p
  simp only at h1 h2 h3 h4 h5
  subst h1 h2 h3 h4 h5
  rfl

theorem Step.sound {w w' : World D} {d : Deed D} (h : Step w d w') (hw : Sound w) : Sound w' := by
  obtain ⟨own, hf, hs⟩ := hw
  cases h with
  | make flags e =>
    refine ⟨own, fun h hh => ?_, hs⟩
    rcases List.mem_append.1 hh with hh | hh
    · exact hf h hh
    · obtain rfl := List.mem_singleton.1 hh
      intro k
      rw [(new_seen e w.st).2 k]
      exact .nil _
  | copy i e =>
    refine ⟨own, fun h hh => ?_, hs⟩
    rcases List.mem_append.1 hh with hh | hh
    · exact hf h hh
    · obtain rfl := List.mem_singleton.1 hh
      exact hf _ (List.mem_of_getElem? e)
  | assign dst source e _ =>
    refine ⟨own, fun h hh => ?_, hs⟩
    rcases List.mem_or_eq_of_mem_set hh with hh | rfl
    · exact hf h hh
    · exact hf _ (List.mem_of_getElem? e)
  | @call h0 i c e _ =>
    have t := call_tells (x := ⟨w.st, h0⟩) (hf _ (List.mem_of_getElem? e)) hs c
    obtain ⟨own', h1, h2, h3⟩ := t.goes.ledger
    refine ⟨own', fun h hh => ?_, h3⟩
    rcases List.mem_or_eq_of_mem_set hh with hh | rfl
    · intro k
      rcases h1 k with e | ⟨g, e⟩
      · rw [e]; exact hf h hh k
      · rw [e]; exact (hf h hh k).more g
    · exact h2

theorem Later.sound {w w' : World D} {ds : List (Deed D)} (h : Later w ds w') (hw : Sound w) : Sound w' := by
  induction h with
  | refl => exact hw
  | step _ h ih => exact h.sound ih

theorem Past.sound {w : World D} (h : Past w) : Sound w := by
  obtain ⟨ds, h⟩ := h
  exact h.sound ⟨fun _ => [], by simp [World.empty], fun k => by cases k <;> rfl⟩

theorem Past.step {w w' : World D} {d : Deed D} (h : Past w) (s : Step w d w') : Past w' := by
  obtain ⟨ds, h⟩ := h
  exact ⟨_, h.step s⟩

theorem Past.later {w w' : World D} {ds : List (Deed D)} (h : Past w) (s : Later w ds w') : Past w' := by
  induction s with
  | refl => exact h
  | step _ s ih => exact ih.step s

/-- What the user of a parser is told by a call, in any program. -/
theorem Sound.tells {w : World D} (hw : Sound w) {i : Nat} {h : Handle D} (hi : w.ps[i]? = some h) (c : Call D) :
    ∃ own, (∀ h ∈ w.ps, Fits' own h) ∧ Sized own w.st ∧
      Tells own ⟨w.st, h⟩ (Allocates (InMem.seen ⟨w.st, h⟩) c) (Renews c (c.onValue (InMem.seen ⟨w.st, h⟩)).2) (c.onMem ⟨w.st, h⟩)
        (c.onValue (InMem.seen ⟨w.st, h⟩)) := by
  obtain ⟨own, hf, hs⟩ := hw
  exact ⟨own, hf, hs, call_tells (hf _ (List.mem_of_getElem? hi)) hs c⟩

omit [Dbl D] in
theorem sees_eq {w : World D} {i : Nat} {p : Parser D} (h : w.sees i = some p) : ∃ hh, w.ps[i]? = some hh ∧ p = InMem.seen ⟨w.st, hh⟩ := by
  unfold World.sees at h
  obtain ⟨hh, e1, e2⟩ := Option.map_eq_some_iff.1 h
  exact ⟨hh, e1, e2.symm⟩

omit [Dbl D] in
theorem sees_of {w : World D} {i : Nat} {h : Handle D} (e : w.ps[i]? = some h) : w.sees i = some (InMem.seen ⟨w.st, h⟩) := by
  unfold World.sees; rw [e]; rfl

/-- The entry of another parser after a call. -/
theorem others_get {A : Type} {own own' : List Str} {m m' g : Map Nat} {arena arena' : List A} (hg : Fit own g) (hl : arena.length = own.length)
    (ho : own' = own ∨ ∃ f, own' = own ++ [f]) (hm : Fit own m) (hm' : Fit own' m') (hl' : arena'.length = own'.length)
    (frame : ∀ n, n < arena.length → arena'[n]? = arena[n]? ∨ ∃ f, m.get f = some n ∧ m'.get f = some n) (f : Str) :
    ((∃ n, m'.get f = some n ∧ g.get f = some n) → (deref arena' g).get f = (deref arena' m').get f) ∧
    (¬ (∃ n, m'.get f = some n ∧ g.get f = some n) → (deref arena' g).get f = (deref arena g).get f) := by
  have hg' : Fit own' g := by
    rcases ho with rfl | ⟨f, rfl⟩
    · exact hg
    · exact hg.more f
  rw [hg'.get_deref hl', hm'.get_deref hl', hg.get_deref hl]
  constructor
  · rintro ⟨n, e1, e2⟩
    rw [e1, e2]
  · intro hn
    cases hgf : g.get f with
    | none => rfl
    | some n =>
      show arena'[n]? = arena[n]?
      rcases frame n (by rw [hl]; exact hg.get_lt hgf) with e | ⟨f', e1, e2⟩
      · exact e
      · exfalso
        have a1 := hg.get_own hgf
        have a2 := hm.get_own e1
        rw [a1] at a2
        cases a2
        exact hn ⟨n, e2, hgf⟩

omit [Dbl D] in
theorem bystander {own : ArgKind → List Str} {x : InMem D} {g : Handle D} (hf : Fits' own x.h) (hs : Sized own x.st) (hg : Fits' own g) {fresh : Prop}
    {anew : ArgKind → Str → Prop} {y : InMem D} (t : Goes own x fresh anew y) :
    Bystander (fun k f => ∃ n, (y.h.map k).get f = some n ∧ (g.map k).get f = some n) y.seen (InMem.seen ⟨x.st, g⟩) (InMem.seen ⟨y.st, g⟩) := by
  obtain ⟨own', h1, h2, h3⟩ := t.ledger
  refine ⟨rfl, rfl, rfl, rfl, rfl, rfl, ?_, ?_, ?_, ?_, ?_⟩
  · exact fun f => others_get (hg .str) (hs .str) (h1 .str) (hf .str) (h2 .str) (h3 .str) (t.frame .str) f
  · exact fun f => others_get (hg .switch) (hs .switch) (h1 .switch) (hf .switch) (h2 .switch) (h3 .switch) (t.frame .switch) f
  · exact fun f => others_get (hg .int) (hs .int) (h1 .int) (hf .int) (h2 .int) (h3 .int) (t.frame .int) f
  · exact fun f => others_get (hg .double) (hs .double) (h1 .double) (hf .double) (h2 .double) (h3 .double) (t.frame .double) f
  · exact fun f => others_get (hg .file) (hs .file) (h1 .file) (hf .file) (h2 .file) (h3 .file) (t.frame .file) f

/-! ### Parsers seen through copies are parsers -/

theorem keys_get {A : Type} (m : Map A) (k : Str) : (m.get k).isSome = decide (k ∈ m.map (·.1)) := by
  induction m with
  | nil => rfl
  | cons e m ih =>
    unfold Map.get
    by_cases c : k = e.1
    · simp [c]
    · rw [if_neg c, ih]; simp [c]

/-- Taking over the arguments of some flags from another parser, one map at a time. -/
theorem take_over {A : Type} {P : Map A → Prop} {m' m : Map A} {o : Map A} (hm : Readers.SortedSet (m.map (·.1))) (hk : m'.map (·.1) = m.map (·.1))
    (hv : ∀ f, m'.get f = m.get f ∨ m'.get f = o.get f) (h0 : P m)
    (step : ∀ (n : Map A) (f : Str) (a b : A), Readers.SortedSet (n.map (·.1)) → P n → n.get f = some a → o.get f = some b → P (n.set f b)) : P m' := by
  have hm' : Readers.SortedSet (m'.map (·.1)) := by rw [hk]; exact hm
  -- after the entries of a list have been taken over
  have key : ∀ l : List (Str × A), (∀ e ∈ l, e ∈ m') → ∃ n : Map A, P n ∧ n.map (·.1) = m.map (·.1) ∧ (∀ f, n.get f = m.get f ∨ n.get f = m'.get f) ∧
      ∀ e ∈ l, n.get e.1 = m'.get e.1 := by
    intro l
    induction l with
    | nil => exact fun _ => ⟨m, h0, rfl, fun f => .inl rfl, by simp⟩
    | cons e l ih =>
      intro hl
      obtain ⟨n, p1, p2, p3, p4⟩ := ih fun x hx => hl x (by simp [hx])
      have he : m'.get e.1 = some e.2 := Map.get_of_mem (Readers.sorted_nodup hm') (hl e (by simp))
      by_cases c : n.get e.1 = m'.get e.1
      · refine ⟨n, p1, p2, p3, fun x hx => ?_⟩
        rcases List.mem_cons.1 hx with rfl | hx
        · exact c
        · exact p4 x hx
      · have hmem : e.1 ∈ n.map (·.1) := by
          rw [p2, ← hk]
          exact List.mem_map_of_mem (hl e (by simp))
        obtain ⟨a, ha⟩ : ∃ a, n.get e.1 = some a := by
          have := keys_get n e.1
          rw [decide_eq_true hmem] at this
          exact Option.isSome_iff_exists.1 this
        have hb : o.get e.1 = some e.2 := by
          rcases hv e.1 with h | h
          · rcases p3 e.1 with h' | h'
            · exact absurd (h'.trans h.symm) c
            · exact absurd h' c
          · rw [← h]; exact he
        have hn : Readers.SortedSet (n.map (·.1)) := by rw [p2]; exact hm
        refine ⟨n.set e.1 e.2, step n e.1 a e.2 hn p1 ha hb, ?_, fun f => ?_, fun x hx => ?_⟩
        · rw [Map.set_keys, Readers.insert_mem hn hmem, p2]
        · rw [Map.get_set]
          by_cases cf : f = e.1
          · rw [if_pos cf, cf]; exact .inr he.symm
          · rw [if_neg cf]; exact p3 f
        · rw [Map.get_set]
          by_cases cf : x.1 = e.1
          · rw [if_pos cf, cf]; exact he.symm
          · rw [if_neg cf]
            rcases List.mem_cons.1 hx with rfl | hx
            · exact absurd rfl cf
            · exact p4 x hx
  obtain ⟨n, p1, p2, p3, p4⟩ := key m' fun e he => he
  have : n = m' := by
    refine map_ext (by rw [p2]; exact hm) hm' fun f => ?_
    cases h : m'.get f with
    | some a => rw [← h]; exact p4 _ (Map.get_mem h)
    | none =>
      cases h' : n.get f with
      | none => rfl
      | some a =>
        exfalso
        have h1 := keys_get n f
        have h2 := keys_get m' f
        rw [h', p2, ← hk] at h1
        rw [h] at h2
        rw [← h1] at h2
        cases h2
  exact this ▸ p1

theorem Bystander.reached {share : ArgKind → Str → Prop} {p' q q' : Parser D} (b : Bystander share p' q q') (hp : ParserReached p') (hq : ParserReached q)
    (h1 : q'.strArg.map (·.1) = q.strArg.map (·.1)) (h2 : q'.switchArg.map (·.1) = q.switchArg.map (·.1)) (h3 : q'.intArg.map (·.1) = q.intArg.map (·.1))
    (h4 : q'.doubleArg.map (·.1) = q.doubleArg.map (·.1)) (h5 : q'.fileArg.map (·.1) = q.fileArg.map (·.1)) : ParserReached q' := by
  have ok := hq.argsOk
  obtain ⟨a1, a2, a3, a4, a5, b1, b2, b3, b4, b5, b6⟩ := q
  obtain ⟨c1, c2, c3, c4, c5, d1, d2, d3, d4, d5, d6⟩ := q'
  have e1 := b.flags
  have e2 := b.defaults
  have e3 := b.ints
  have e4 := b.doubles
  have e5 := b.strs
  have e6 := b.sizes
  simp only at e1 e2 e3 e4 e5 e6 h1 h2 h3 h4 h5
  subst e1 e2 e3 e4 e5 e6
  have pick : ∀ {A : Type} {m m' o : Map A} {s : Str → Prop}, (∀ f, (s f → m'.get f = o.get f) ∧ (¬ s f → m'.get f = m.get f)) →
      ∀ f, m'.get f = m.get f ∨ m'.get f = o.get f := by
    intro A m m' o s h f
    by_cases c : s f
    · exact .inr ((h f).1 c)
    · exact .inl ((h f).2 c)
  have s1 := take_over (P := fun m => ParserReached (⟨m, a2, a3, a4, a5, d1, d2, d3, d4, d5, d6⟩ : Parser D)) ok.strs.sorted h1 (pick b.str) hq
    fun n f a v _ hn ha hv => .shareStr f hn hp ha hv
  have s2 := take_over (P := fun m => ParserReached (⟨c1, m, a3, a4, a5, d1, d2, d3, d4, d5, d6⟩ : Parser D)) ok.switches.sorted h2 (pick b.switch) s1
    fun n f a v _ hn ha hv => .shareSwitch f hn hp ha hv
  have s3 := take_over (P := fun m => ParserReached (⟨c1, c2, m, a4, a5, d1, d2, d3, d4, d5, d6⟩ : Parser D)) ok.ints.sorted h3 (pick b.int) s2
    fun n f a v _ hn ha hv => .shareInt f hn hp ha hv
  have s4 := take_over (P := fun m => ParserReached (⟨c1, c2, c3, m, a5, d1, d2, d3, d4, d5, d6⟩ : Parser D)) ok.doubles.sorted h4 (pick b.double) s3
    fun n f a v _ hn ha hv => .shareDouble f hn hp ha hv
  exact take_over (P := fun m => ParserReached (⟨c1, c2, c3, c4, m, d1, d2, d3, d4, d5, d6⟩ : Parser D)) ok.files.sorted h5 (pick b.file) s4
    fun n f a v _ hn ha hv => .shareFile f hn hp ha hv

/-- Any call leads from a parser to a parser. -/
theorem call_reached {p : Parser D} (h : ParserReached p) (c : Call D) (hc : Calm (c.onValue p).2) : ParserReached (c.onValue p).1 := by
  have all : ∀ {x : Left (Parser D)} {r : Res (Parser D)}, AllOrNothing x r p → Calm x.2 → (∀ q, r = .ok q → ParserReached q) → ParserReached x.1 := by
    intro x r ⟨h1, h2⟩ hc hq
    rcases hc with ⟨u, hu⟩ | ⟨e, he⟩
    · refine hq _ ?_
      rw [← h1]; unfold Left.outcome; rw [hu]; rfl
    · rw [h2 e he]; exact h
  have st := C134_setters h
  cases c with
  | addFlagArg flag arg => exact all (st flag arg [] []).1 hc fun q e => .addFlagArg _ _ h e
  | defaultInt flag v => exact .defaultInt flag v h
  | defaultSize flag v => exact .defaultSize flag v h
  | defaultDouble flag v => exact .defaultDouble flag v h
  | defaultStr flag v => exact .defaultStr flag v h
  | optInt flag arg pr op v => exact all ((st flag arg pr op).2.1 v) hc fun q e => .optInt _ _ _ _ _ h e
  | optDouble flag arg pr op v => exact all ((st flag arg pr op).2.2.1 v) hc fun q e => .optDouble _ _ _ _ _ h e
  | optStr flag arg pr op v => exact all ((st flag arg pr op).2.2.2.1 v) hc fun q e => .optStr _ _ _ _ _ h e
  | optSet flag arg pr op v => exact all ((st flag arg pr op).2.2.2.2.1 v) hc fun q e => .optSet _ _ _ _ _ h e
  | optVec flag arg pr op v => exact all ((st flag arg pr op).2.2.2.2.2 v) hc fun q e => .optVec _ _ _ _ _ h e
  | parse fs args =>
    rcases hc with ⟨u, hu⟩ | ⟨e, he⟩
    · refine .parse fs args h (q := (parseL fs p args).1) ?_
      rw [← C134_result]; unfold Left.outcome
      have : (parseL fs p args).2 = .ok u := hu
      rw [this]; rfl
    · exact .refused fs args h (Prod.ext rfl he)

end
end Verif.Args
