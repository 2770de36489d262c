import Verif.ParserCopyWorld
/-
Property C135: copies of an ArgumentParser share their arguments, not their values.
-/
namespace Verif.Args
section
variable {D : Type} [Dbl D]

/-- C135: in any program with any number of parsers and copies, a call does to the parser it is made on what it would do if there were no other parser:
how the call ends, and what the parser then is, are functions of what the parser's user sees. -/
theorem C135_call {w : World D} (hw : Past w) {i : Nat} {h : Handle D} {p : Parser D} (hi : w.ps[i]? = some h) (hp : w.sees i = some p) (c : Call D) :
    (c.onMem ⟨w.st, h⟩).2 = (c.onValue p).2 ∧ (c.onMem ⟨w.st, h⟩).1.seen = (c.onValue p).1 ∧
    ∀ w', Step w (.call i c) w' → w'.sees i = some (c.onValue p).1 := by
  obtain ⟨h', hi', rfl⟩ := sees_eq hp
  obtain rfl := Option.some.inj (hi.symm.trans hi')
  obtain ⟨own, -, -, t⟩ := hw.sound.tells hi c
  refine ⟨t.out, t.seen, fun w' s => ?_⟩
  cases s with
  | @call h0 _ _ e _ =>
    obtain rfl := Option.some.inj (hi.symm.trans e)
    rw [← t.seen, sees_of (h := (c.onMem ⟨w.st, h⟩).1.h)]
    show (w.ps.set i _)[i]? = _
    rw [List.getElem?_set_self (List.getElem?_eq_some_iff.1 hi).1]

theorem askH_seen {S : Type} {own : List Str} {m : Map Nat} (h : Fit own m) {arena : List (ArgObj S D)} (hl : arena.length = own.length)
    (flag arg pr op : Str) : askH arena m flag arg pr op = ((((deref arena m).get flag).filter (fun a => a.name = arg)).map fun a => a.propertyValue pr op) := by
  unfold askH
  rw [h.get_deref hl]
  cases hg : m.get flag with
  | none => rfl
  | some n =>
    obtain ⟨a, ha, -⟩ := h.object hl hg
    simp only [ha, Option.bind_some]
    by_cases c : a.name = arg <;> simp [c, Option.filter]

omit [Dbl D] in
theorem isSome_seen {A : Type} {own : List Str} {m : Map Nat} (h : Fit own m) {arena : List A} (hl : arena.length = own.length) (flag : Str) :
    ((deref arena m).get flag = none ∧ m.get flag = none) ∨ ∃ n a, m.get flag = some n ∧ (deref arena m).get flag = some a := by
  cases hg : m.get flag with
  | none => exact .inl ⟨h.absent hl hg, rfl⟩
  | some n =>
    obtain ⟨a, -, hd⟩ := h.object hl hg
    exact .inr ⟨n, a, rfl, hd⟩

/-- C135: reading is reading what the user sees. -/
theorem C135_read {w : World D} (hw : Past w) {i : Nat} {h : Handle D} {p : Parser D} (hi : w.ps[i]? = some h) (hp : w.sees i = some p) :
    (∀ flag arg pr op, getFlagArgOptValueH ⟨w.st, h⟩ flag arg pr op = getFlagArgOptValue p flag arg pr op) ∧
    ∀ flag, getIntH h flag = getInt p flag ∧ getDoubleH h flag = getDouble p flag ∧ getStrH h flag = getStr p flag ∧ getSizeH h flag = getSize p flag := by
  obtain ⟨h', hi', rfl⟩ := sees_eq hp
  obtain rfl := Option.some.inj (hi.symm.trans hi')
  obtain ⟨own, hf, hs⟩ := hw.sound
  have hf := hf h (List.mem_of_getElem? hi)
  refine ⟨fun flag arg pr op => ?_, fun flag => ⟨?_, rfl, ?_, rfl⟩⟩
  · unfold getFlagArgOptValueH getFlagArgOptValue
    have e1 := askH_seen (hf .str) (hs .str) flag arg pr op
    have e2 := askH_seen (hf .switch) (hs .switch) flag arg pr op
    have e3 := askH_seen (hf .file) (hs .file) flag arg pr op
    have e4 := askH_seen (hf .int) (hs .int) flag arg pr op
    simp only [Handle.map] at e1 e2 e3 e4
    simp only [e1, e2, e3, e4, InMem.seen]
    cases ((deref w.st.str h.strArg).get flag).filter (fun a => a.name = arg) with
    | some a => rfl
    | none =>
      simp only [Option.map_none]
      cases ((deref w.st.switch h.switchArg).get flag).filter (fun a => a.name = arg) with
      | some a => rfl
      | none =>
        simp only [Option.map_none]
        cases ((deref w.st.file h.fileArg).get flag).filter (fun a => a.name = arg) with
        | some a => rfl
        | none =>
          simp only [Option.map_none]
          cases ((deref w.st.int h.intArg).get flag).filter (fun a => a.name = arg) <;> rfl
  · rcases isSome_seen (hf .switch) (hs .switch) flag with ⟨h1, h2⟩ | ⟨n, a, h1, h2⟩
    · have h1 : (deref w.st.switch h.switchArg).get flag = none := h1
      have h2 : h.switchArg.get flag = none := h2
      simp only [getIntH, getInt, InMem.seen, h1, h2]
      cases h.ints.get flag <;> rfl
    · have h1 : h.switchArg.get flag = some n := h1
      have h2 : (deref w.st.switch h.switchArg).get flag = some a := h2
      simp only [getIntH, getInt, InMem.seen, h1, h2]
      cases h.ints.get flag with
      | some v => rfl
      | none => cases h.strs.get flag <;> rfl
  · rcases isSome_seen (hf .switch) (hs .switch) flag with ⟨h1, h2⟩ | ⟨n, a, h1, h2⟩
    · have h1 : (deref w.st.switch h.switchArg).get flag = none := h1
      have h2 : h.switchArg.get flag = none := h2
      simp only [getStrH, getStr, InMem.seen, h1, h2]
      cases h.strs.get flag <;> rfl
    · have h1 : h.switchArg.get flag = some n := h1
      have h2 : (deref w.st.switch h.switchArg).get flag = some a := h2
      simp only [getStrH, getStr, InMem.seen, h1, h2]
      cases h.strs.get flag with
      | some v => rfl
      | none => cases h.ints.get flag <;> rfl

/-- C135: what a call on one parser does to another: it changes the arguments the two have in common, into what they are in the first, and nothing else. -/
theorem C135_others {w w' : World D} (hw : Past w) {i j : Nat} (hij : j ≠ i) {c : Call D} (s : Step w (.call i c) w') {q : Parser D} (hq : w.sees j = some q) :
    ∃ p' q', w'.sees i = some p' ∧ w'.sees j = some q' ∧ Bystander (Shares w' i j) p' q q' := by
  obtain ⟨g, hj, rfl⟩ := sees_eq hq
  cases s with
  | @call h _ _ hi _ =>
    obtain ⟨own, hf, hs, t⟩ := hw.sound.tells hi c
    have e1 : (w.ps.set i (c.onMem ⟨w.st, h⟩).1.h)[i]? = some (c.onMem ⟨w.st, h⟩).1.h := by
      rw [List.getElem?_set_self (List.getElem?_eq_some_iff.1 hi).1]
    have e2 : (w.ps.set i (c.onMem ⟨w.st, h⟩).1.h)[j]? = some g := by rw [List.getElem?_set_ne (Ne.symm hij), hj]
    refine ⟨_, _, sees_of e1, sees_of e2, ?_⟩
    have b := bystander (hf h (List.mem_of_getElem? hi)) hs (hf g (List.mem_of_getElem? hj)) t.goes
    have : (fun k f => ∃ n, (((c.onMem ⟨w.st, h⟩).1.h).map k).get f = some n ∧ (g.map k).get f = some n) =
        Shares (⟨(c.onMem ⟨w.st, h⟩).1.st, w.ps.set i (c.onMem ⟨w.st, h⟩).1.h⟩ : World D) i j := by
      funext k f
      apply propext
      constructor
      · rintro ⟨n, h1, h2⟩
        exact ⟨_, _, n, e1, e2, by rw [Handle.ptr_eq]; exact h1, by rw [Handle.ptr_eq]; exact h2⟩
      · rintro ⟨a, b, n, h1, h2, h3, h4⟩
        obtain rfl := Option.some.inj (h1.symm.trans e1)
        obtain rfl := Option.some.inj (h2.symm.trans e2)
        rw [Handle.ptr_eq] at h3 h4
        exact ⟨n, h3, h4⟩
    rw [← this]
    exact b

/-- What one deed does to a parser that it neither calls nor assigns to: its flags have the arguments they had. -/
theorem keys_kept {w w' : World D} (hw : Past w) {i j : Nat} (hij : j ≠ i) {c : Call D} (s : Step w (.call i c) w') {q q' : Parser D} (hq : w.sees j = some q)
    (hq' : w'.sees j = some q') : q'.strArg.map (·.1) = q.strArg.map (·.1) ∧ q'.switchArg.map (·.1) = q.switchArg.map (·.1) ∧
      q'.intArg.map (·.1) = q.intArg.map (·.1) ∧ q'.doubleArg.map (·.1) = q.doubleArg.map (·.1) ∧ q'.fileArg.map (·.1) = q.fileArg.map (·.1) := by
  obtain ⟨g, hj, rfl⟩ := sees_eq hq
  obtain ⟨g', hj', rfl⟩ := sees_eq hq'
  obtain ⟨own', hf', hs'⟩ := (hw.step s).sound
  obtain ⟨own, hf, hs⟩ := hw.sound
  have f1 := hf g (List.mem_of_getElem? hj)
  have f2 := hf' g' (List.mem_of_getElem? hj')
  have : g' = g := by
    cases s with
    | @call h _ _ hi _ =>
      have : (w.ps.set i (c.onMem ⟨w.st, h⟩).1.h)[j]? = some g' := hj'
      rw [List.getElem?_set_ne (Ne.symm hij), hj] at this
      exact (Option.some.inj this).symm
  subst this
  exact ⟨((f2 .str).keys_deref (hs' .str)).trans ((f1 .str).keys_deref (hs .str)).symm,
    ((f2 .switch).keys_deref (hs' .switch)).trans ((f1 .switch).keys_deref (hs .switch)).symm,
    ((f2 .int).keys_deref (hs' .int)).trans ((f1 .int).keys_deref (hs .int)).symm,
    ((f2 .double).keys_deref (hs' .double)).trans ((f1 .double).keys_deref (hs .double)).symm,
    ((f2 .file).keys_deref (hs' .file)).trans ((f1 .file).keys_deref (hs .file)).symm⟩

/-- C135: every parser of every program is one of the parsers the other claims are about. -/
theorem C135_reached {w : World D} (hw : Past w) {i : Nat} {p : Parser D} (hp : w.sees i = some p) : ParserReached p := by
  obtain ⟨ds, l⟩ := hw
  have key : ∀ {ds : List (Deed D)} {w : World D}, Later World.empty ds w → Past w ∧ ∀ i p, w.sees i = some p → ParserReached p := by
    intro ds w l
    induction l with
    | refl =>
      refine ⟨⟨[], .refl⟩, fun i p h => ?_⟩
      obtain ⟨g, hg, -⟩ := sees_eq h
      simp [World.empty] at hg
    | @step ds d v v' l s ih =>
      obtain ⟨pv, ih⟩ := ih
      refine ⟨pv.step s, fun i p h => ?_⟩
      have s0 := s
      cases s with
      | @make h0 flags e =>
        obtain ⟨g, hg, rfl⟩ := sees_eq h
        have hg : (v.ps ++ [h0])[i]? = some g := hg
        rcases Nat.lt_or_ge i v.ps.length with c | c
        · rw [List.getElem?_append_left c] at hg
          exact ih i _ (sees_of hg)
        · rw [List.getElem?_append_right c] at hg
          obtain rfl := List.mem_singleton.1 (List.mem_of_getElem? hg)
          exact .new _ (new_seen e v.st).1
      | @copy h0 k e =>
        obtain ⟨g, hg, rfl⟩ := sees_eq h
        have hg : (v.ps ++ [h0])[i]? = some g := hg
        rcases Nat.lt_or_ge i v.ps.length with c | c
        · rw [List.getElem?_append_left c] at hg
          exact ih i _ (sees_of hg)
        · rw [List.getElem?_append_right c] at hg
          obtain rfl := List.mem_singleton.1 (List.mem_of_getElem? hg)
          exact ih k _ (sees_of e)
      | @assign h0 dst source e hd =>
        obtain ⟨g, hg, rfl⟩ := sees_eq h
        have hg : (v.ps.set dst h0)[i]? = some g := hg
        by_cases c : dst = i
        · subst c
          rw [List.getElem?_set_self hd] at hg
          obtain rfl := Option.some.inj hg
          exact ih source _ (sees_of e)
        · rw [List.getElem?_set_ne c] at hg
          exact ih i _ (sees_of hg)
      | @call h0 k c e hc =>
        have hk := sees_of e
        obtain ⟨o1, o2, o3⟩ := C135_call pv e hk c
        have rk : ParserReached (c.onValue (InMem.seen ⟨v.st, h0⟩)).1 := call_reached (ih k _ hk) c (o1 ▸ hc)
        by_cases cc : i = k
        · subst cc
          obtain rfl := Option.some.inj (h.symm.trans (o3 _ s0))
          exact rk
        · obtain ⟨g, hg, rfl⟩ := sees_eq h
          have hg0 : v.ps[i]? = some g := by
            have hg : (v.ps.set k _)[i]? = some g := hg
            rwa [List.getElem?_set_ne (Ne.symm cc)] at hg
          obtain ⟨p', q', h1, h2, b⟩ := C135_others pv cc s0 (sees_of hg0)
          obtain rfl := Option.some.inj (h.symm.trans h2)
          obtain rfl := Option.some.inj (h1.symm.trans (o3 _ s0))
          obtain ⟨k1, k2, k3, k4, k5⟩ := keys_kept pv cc s0 (sees_of hg0) h2
          exact b.reached rk (ih i _ (sees_of hg0)) k1 k2 k3 k4 k5
  exact (key l).2 i p hp

/-! ### Which arguments are shared -/

/-- C135: a parser shares with itself the arguments it has. -/
theorem C135_self {w : World D} (hw : Past w) {i : Nat} {p : Parser D} (hp : w.sees i = some p) (k : ArgKind) (f : Str) : Shares w i i k f ↔ HasArg p f k := by
  obtain ⟨h, hi, rfl⟩ := sees_eq hp
  obtain ⟨own, hf, hs⟩ := hw.sound
  rw [hasArg_iff (x := ⟨w.st, h⟩) (hf h (List.mem_of_getElem? hi)) hs]
  constructor
  · rintro ⟨a, b, n, h1, -, h3, -⟩
    obtain rfl := Option.some.inj (hi.symm.trans h1)
    rw [Handle.ptr_eq] at h3
    simp [h3]
  · intro hn
    obtain ⟨n, hn⟩ := Option.ne_none_iff_exists'.1 hn
    exact ⟨h, h, n, hi, hi, by rw [Handle.ptr_eq]; exact hn, by rw [Handle.ptr_eq]; exact hn⟩

omit [Dbl D] in
theorem Shares.symm {w : World D} {i j : Nat} {k : ArgKind} {f : Str} (h : Shares w i j k f) : Shares w j i k f := by
  obtain ⟨a, b, n, h1, h2, h3, h4⟩ := h
  exact ⟨b, a, n, h2, h1, h4, h3⟩

omit [Dbl D] in
/-- Sharing depends on the two parsers' pointers only. -/
theorem shares_congr {w w' : World D} {i j i' j' : Nat} (h : w'.ps[i']? = w.ps[i]?) (h' : w'.ps[j']? = w.ps[j]?) (k : ArgKind) (f : Str) :
    Shares w' i' j' k f ↔ Shares w i j k f := by
  unfold Shares
  rw [h, h']

/-- C135: a new parser is what the constructor makes of the flags; it shares nothing, and the other parsers stay as they are. -/
theorem C135_make {w w' : World D} {flags : List (List Str)} (s : Step w (.make flags) w') :
    (∃ p, newParser flags = .ok p ∧ w'.sees w.ps.length = some p) ∧ (∀ j, j < w.ps.length → w'.sees j = w.sees j) ∧
    (∀ j k f, ¬ Shares w' j w.ps.length k f) ∧ ∀ i j, i < w.ps.length → j < w.ps.length → ∀ k f, Shares w' i j k f ↔ Shares w i j k f := by
  cases s with
  | @make h _ e =>
    have en : (w.ps ++ [h])[w.ps.length]? = some h := by simp
    have eo : ∀ j, j < w.ps.length → (w.ps ++ [h])[j]? = w.ps[j]? := fun j hj => List.getElem?_append_left hj
    refine ⟨⟨_, (new_seen e w.st).1, sees_of en⟩, fun j hj => by unfold World.sees; rw [eo j hj], ?_, fun i j hi hj k f => shares_congr (eo i hi) (eo j hj) k f⟩
    rintro j k f ⟨a, b, n, -, h2, -, h4⟩
    obtain rfl := Option.some.inj (h2.symm.trans en)
    rw [Handle.ptr_eq, (new_seen e w.st).2 k] at h4
    cases h4

/-- C135: a copy is what the parser is, and has its arguments in common with it (and with whoever the parser has them in common with); the other parsers stay
as they are. -/
theorem C135_copy {w w' : World D} {i : Nat} (s : Step w (.copy i) w') :
    (∃ p, w.sees i = some p ∧ w'.sees w.ps.length = some p) ∧ (∀ j, j < w.ps.length → w'.sees j = w.sees j) ∧
    (∀ j, j < w.ps.length → ∀ k f, Shares w' j w.ps.length k f ↔ Shares w j i k f) ∧
    ∀ i j, i < w.ps.length → j < w.ps.length → ∀ k f, Shares w' i j k f ↔ Shares w i j k f := by
  cases s with
  | @copy h _ e =>
    have en : (w.ps ++ [h])[w.ps.length]? = some h := by simp
    have eo : ∀ j, j < w.ps.length → (w.ps ++ [h])[j]? = w.ps[j]? := fun j hj => List.getElem?_append_left hj
    exact ⟨⟨_, sees_of e, sees_of en⟩, fun j hj => by unfold World.sees; rw [eo j hj], fun j hj k f => shares_congr (eo j hj) (en.trans e.symm) k f,
      fun i j hi hj k f => shares_congr (eo i hi) (eo j hj) k f⟩

/-- C135: the same for assigning. -/
theorem C135_assign {w w' : World D} {dst source : Nat} (s : Step w (.assign dst source) w') :
    (∃ p, w.sees source = some p ∧ w'.sees dst = some p) ∧ (∀ j, j ≠ dst → w'.sees j = w.sees j) ∧
    (∀ j, j ≠ dst → ∀ k f, Shares w' j dst k f ↔ Shares w j source k f) ∧
    ∀ i j, i ≠ dst → j ≠ dst → ∀ k f, Shares w' i j k f ↔ Shares w i j k f := by
  cases s with
  | @assign h _ _ e hd =>
    have en : (w.ps.set dst h)[dst]? = some h := by rw [List.getElem?_set_self hd]
    have eo : ∀ j, j ≠ dst → (w.ps.set dst h)[j]? = w.ps[j]? := fun j hj => List.getElem?_set_ne (Ne.symm hj)
    exact ⟨⟨_, sees_of e, sees_of en⟩, fun j hj => by unfold World.sees; rw [eo j hj], fun j hj k f => shares_congr (eo j hj) (en.trans e.symm) k f,
      fun i j hi hj k f => shares_congr (eo i hi) (eo j hj) k f⟩

/-- C135: what two parsers have in common after a call: what they had in common before, except that `addFlagArg(flag, "ARGUMENT_DOUBLE")` gives the parser a
double argument of its own. -/
theorem C135_shares {w w' : World D} (hw : Past w) {i : Nat} {c : Call D} (s : Step w (.call i c) w') {p : Parser D} (hp : w.sees i = some p) {a b : Nat} (hab : a ≠ b)
    (k : ArgKind) (f : Str) : Shares w' a b k f ↔ Shares w a b k f ∧ ¬ ((a = i ∨ b = i) ∧ Renews c (c.onValue p).2 k f) := by
  obtain ⟨h', hi', rfl⟩ := sees_eq hp
  cases s with
  | @call h _ _ hi _ =>
    obtain rfl := Option.some.inj (hi.symm.trans hi')
    obtain ⟨own, hf, hs, t⟩ := hw.sound.tells hi c
    have e1 : (w.ps.set i (c.onMem ⟨w.st, h⟩).1.h)[i]? = some (c.onMem ⟨w.st, h⟩).1.h := by
      rw [List.getElem?_set_self (List.getElem?_eq_some_iff.1 hi).1]
    have eo : ∀ j, j ≠ i → (w.ps.set i (c.onMem ⟨w.st, h⟩).1.h)[j]? = w.ps[j]? := fun j hj => List.getElem?_set_ne (Ne.symm hj)
    have key : ∀ j, j ≠ i → (Shares (⟨(c.onMem ⟨w.st, h⟩).1.st, w.ps.set i (c.onMem ⟨w.st, h⟩).1.h⟩ : World D) i j k f ↔
        Shares w i j k f ∧ ¬ Renews c (c.onValue (InMem.seen ⟨w.st, h⟩)).2 k f) := by
      intro j hj
      have lt : ∀ {g : Handle D} {n : Nat}, w.ps[j]? = some g → (g.map k).get f = some n → n < w.st.len k := by
        intro g n hg hn
        rw [hs k]
        exact (hf g (List.mem_of_getElem? hg) k).get_lt hn
      constructor
      · rintro ⟨a, g, n, h1, h2, h3, h4⟩
        obtain rfl := Option.some.inj (h1.symm.trans e1)
        have h2 : w.ps[j]? = some g := (eo j hj).symm.trans h2
        rw [Handle.ptr_eq] at h3 h4
        have hlt := lt h2 h4
        refine ⟨?_, fun r => ?_⟩
        · rcases t.goes.ptrs k f with e | ⟨-, e⟩
          · exact ⟨h, g, n, hi, h2, by rw [Handle.ptr_eq, ← e]; exact h3, by rw [Handle.ptr_eq]; exact h4⟩
          · rw [e] at h3
            cases h3
            exact absurd hlt (Nat.lt_irrefl _)
        · have e := t.goes.renew k f r
          rw [e] at h3
          cases h3
          exact absurd hlt (Nat.lt_irrefl _)
      · rintro ⟨⟨a, g, n, h1, h2, h3, h4⟩, hr⟩
        obtain rfl := Option.some.inj (hi.symm.trans h1)
        rw [Handle.ptr_eq] at h3 h4
        refine ⟨_, g, n, e1, (eo j hj).trans h2, ?_, by rw [Handle.ptr_eq]; exact h4⟩
        rw [Handle.ptr_eq]
        rcases t.goes.ptrs k f with e | ⟨e | e, -⟩
        · rw [e]; exact h3
        · rw [show (h.map k).get f = none from e] at h3; cases h3
        · exact absurd e hr
    by_cases ca : a = i
    · subst ca
      rw [key b (Ne.symm hab)]
      simp
    by_cases cb : b = i
    · subst cb
      have := key a ca
      constructor
      · intro h
        obtain ⟨h1, h2⟩ := this.1 h.symm
        exact ⟨h1.symm, fun r => h2 r.2⟩
      · rintro ⟨h1, h2⟩
        exact (this.2 ⟨h1.symm, fun r => h2 ⟨.inr rfl, r⟩⟩).symm
    · rw [shares_congr (eo a ca) (eo b cb) k f]
      constructor
      · exact fun h => ⟨h, fun r => r.1.elim ca cb⟩
      · exact fun h => h.1

/-- C135: where two parsers have an argument in common, it is the same for both: so are the options that can be read. -/
theorem C135_agree {w : World D} (hw : Past w) {i j : Nat} {k : ArgKind} {f : Str} (s : Shares w i j k f) {p q : Parser D} (hp : w.sees i = some p)
    (hq : w.sees j = some q) : HasArg p f k ∧ HasArg q f k ∧ SameArg p q k f ∧
      ∀ arg, k.word = some arg → ∀ pr op, getFlagArgOptValue p f arg pr op = getFlagArgOptValue q f arg pr op := by
  have rp := C135_reached hw hp
  have rq := C135_reached hw hq
  obtain ⟨a, ha, rfl⟩ := sees_eq hp
  obtain ⟨b, hb, rfl⟩ := sees_eq hq
  obtain ⟨a', b', n, h1, h2, h3, h4⟩ := s
  obtain rfl := Option.some.inj (ha.symm.trans h1)
  obtain rfl := Option.some.inj (hb.symm.trans h2)
  obtain ⟨own, hf, hs⟩ := hw.sound
  have fa := hf a (List.mem_of_getElem? ha)
  have fb := hf b (List.mem_of_getElem? hb)
  rw [Handle.ptr_eq] at h3 h4
  have same : SameArg (InMem.seen ⟨w.st, a⟩) (InMem.seen ⟨w.st, b⟩) k f := by
    have eq : ∀ {A : Type} {arena : List A}, arena.length = (own k).length → (deref arena (a.map k)).get f = (deref arena (b.map k)).get f := by
      intro A arena hl
      rw [(fa k).get_deref hl, (fb k).get_deref hl, h3, h4]
    cases k with
    | str => exact eq (hs .str)
    | switch => exact eq (hs .switch)
    | int => exact eq (hs .int)
    | double => exact eq (hs .double)
    | file => exact eq (hs .file)
  refine ⟨?_, ?_, same, fun arg hk pr op => ?_⟩
  · rw [hasArg_iff (x := ⟨w.st, a⟩) fa hs]; simp [h3]
  · rw [hasArg_iff (x := ⟨w.st, b⟩) fb hs]; simp [h4]
  · rw [getFlagArgOptValue_eq rp.argsOk, getFlagArgOptValue_eq rq.argsOk]
    unfold lookup inMap
    cases k with
    | double => cases hk
    | str =>
      cases hk
      have same : (InMem.seen ⟨w.st, a⟩).strArg.get f = (InMem.seen ⟨w.st, b⟩).strArg.get f := same
      rw [if_pos rfl, if_pos rfl, same]
    | switch =>
      cases hk
      have same : (InMem.seen ⟨w.st, a⟩).switchArg.get f = (InMem.seen ⟨w.st, b⟩).switchArg.get f := same
      rw [if_neg (by decide), if_pos rfl, if_neg (by decide), if_pos rfl, same]
    | file =>
      cases hk
      have same : (InMem.seen ⟨w.st, a⟩).fileArg.get f = (InMem.seen ⟨w.st, b⟩).fileArg.get f := same
      rw [if_neg (by decide), if_neg (by decide), if_pos rfl, if_neg (by decide), if_neg (by decide), if_pos rfl, same]
    | int =>
      cases hk
      have same : (InMem.seen ⟨w.st, a⟩).intArg.get f = (InMem.seen ⟨w.st, b⟩).intArg.get f := same
      rw [if_neg (by decide), if_neg (by decide), if_neg (by decide), if_pos rfl, if_neg (by decide), if_neg (by decide), if_neg (by decide), if_pos rfl, same]

end
end Verif.Args
