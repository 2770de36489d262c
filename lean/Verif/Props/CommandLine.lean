import Verif.CalcJParse
/-
Properties C58-C63: the command line of calc_J. `calcJ` is the parser `prepareParser` builds (`prepareParser_ok`).
-/
namespace Verif.Args
open Strings
section
variable {D : Type} [Dbl D]

private theorem reads_append {pre post : List Str} {as bs : List Asg} (h : Reads pre as) (h2 : Reads (pre ++ post) bs) :
    ∃ cs, Reads post cs := by
  induction h generalizing bs with
  | nil => exact ⟨bs, h2⟩
  | info h _ ih => exact ih ((reads_info h).1 h2)
  | value h ht _ ih =>
    obtain ⟨cs, -, h3⟩ := (reads_value h ht).1 h2
    exact ih h3
  | switch h _ _ ih =>
    obtain ⟨-, cs, -, h3⟩ := (reads_switch h).1 h2
    exact ih h3

private theorem stops_append {pre post : List Str} {as : List Asg} (h : Reads pre as) (h2 : Stops (pre ++ post)) : Stops post := by
  induction h with
  | nil => exact h2
  | info h _ ih => exact ih ((stops_info h).1 h2)
  | value h ht _ ih => exact ih ((stops_value h ht).1 h2).2
  | switch h _ _ ih => exact ih ((stops_switch h).1 h2).2

/-! ### C58 -/

/-- C58: if the tokens before `t` read as complete flags with their values, so that `t` is in flag position, and `t` is
neither a registered full flag nor a registered abbreviation (nor one of the spellings of the version flag), then parsing
fails with an exception. -/
theorem C58_unknown (fs : FS) (pre post : List Str) (t : Str) (as : List Asg) (hpre : Reads pre as)
    (ht : t ∉ flagTokens) (hv : t ∉ versionTokens) (hfit : ∀ v ∈ pre ++ t :: post, Fits v) :
    ∃ e, parse fs (calcJ (D := D)) (pre ++ t :: post) = .throw e := by
  rcases parse_outcome (D := D) fs _ hfit with ⟨bs, q, h1, -⟩ | ⟨e, h, -⟩ | ⟨-, h | h⟩
  · obtain ⟨cs, h⟩ := reads_append hpre h1
    exact absurd h (reads_unknown ht)
  · exact ⟨e, h⟩
  · exact absurd (known_tokens.2.2 _ (h.2 t (by simp))) ht
  · exact absurd (stops_append hpre h) (stops_unknown ht hv)

/-- C58 (any parser): a token in flag position for which no argument is registered, neither under its own name nor under
the name it abbreviates, is rejected at once with `invalid_argument`. -/
theorem C58_any_parser (fs : FS) (p : Parser D) (t : Str) (rest : List Str)
    (h0 : ∀ f ∈ p.flags, f.1 ≠ t ∧ f.2.1 ≠ t) (h1 : p.strArg.get t = none) (h2 : p.switchArg.get t = none)
    (h3 : p.intArg.get t = none) (h4 : p.doubleArg.get t = none) (h5 : p.fileArg.get t = none)
    (ht : t ∉ infoTokens) (hv : t ∉ versionTokens) :
    parse fs p (t :: rest) = .throw .invalidArgument := by
  have hr : resolve p t = t := by
    unfold resolve
    cases hg : p.flags.get t with
    | some x => rfl
    | none =>
      have : p.flags.find? (fun f => f.2.1 == t) = none := by
        rw [List.find?_eq_none]
        intro x hx hb
        exact (h0 x hx).2 (by simpa using hb)
      simp only [this]
  have hp : parseArg fs p t rest = .throw .invalidArgument := by
    unfold parseArg
    rw [hr]
    simp [strStage, h1, switchStage, h2, intStage, h3, doubleStage, h4, fileStage, h5]
  unfold parse
  rw [if_neg (by simp), parseLoop_other _ _ _ _ _ ht hv, hp]
  rfl

example : Reads [lit "-p_1", lit "a.pun", lit "-cp"] [.value (lit "--pun_1") .pun (lit "a.pun"), .switch (lit "--counter_poise")] ∧
    lit "--nosuch" ∉ flagTokens ∧ lit "--nosuch" ∉ versionTokens :=
  ⟨.value (s := lit "-p_1") (by decide) (.inr rfl) (.switch (by decide) (by simp) .nil), by decide, by decide⟩

/-! ### C59 -/

/-- What `getStr`, `getInt` return for a value-taking flag, given the values it received. -/
theorem C59_last_wins (fs : FS) (args : List Str) (hfit : ∀ v ∈ args, Fits v) (q : Parser D)
    (h : parse fs calcJ args = .ok q) :
    ∃ as, Reads args as ∧ ∀ f s k, (f, s, k) ∈ valueFlags →
      match k, (given f as).getLast? with
      | .onum, some v => ∃ n, IntText v n ∧ getInt q f = .ok n
      | .onum, none => getInt q f = .ok 0
      | _, some v => getStr q f = .ok v
      | .spin, none => getStr q f = .ok (lit "Alpha")
      | .otype, none => getStr q f = .ok (lit "HOMO")
      | .pun, none => getStr q f = .throw .invalidArgument
      | .log, none => getStr q f = .throw .invalidArgument := by
  rcases parse_outcome (D := D) fs args hfit with ⟨as, q', h1, h2, -, h3, h4⟩ | ⟨e, h', -⟩ | ⟨h', -⟩
  · rw [h] at h3; cases h3
    refine ⟨as, h1, ?_⟩
    have hok : ∀ f k v, v ∈ given f as → (∃ s, (f, s, k) ∈ valueFlags) → ValueOk k v := by
      intro f k v hv ⟨s, hf⟩
      clear h4 h hfit
      induction h1 with
      | nil => cases hv
      | info _ _ ih => exact ih h2 hv
      | @value f' s' k' t' v' ts as h' ht _ ih =>
        simp only [given] at hv
        split at hv
        · rename_i e
          subst e
          rcases List.mem_cons.1 hv with rfl | hv
          · have : k' = k := kind_unique _ h' _ hf rfl
            subst this
            exact h2 (.value f' k' v) (by simp)
          · exact ih (fun a ha => h2 a (by simp [ha])) hv
        · exact ih (fun a ha => h2 a (by simp [ha])) hv
      | switch _ _ _ ih => exact ih (fun a ha => h2 a (by simp [ha])) hv
    intro f s k hf
    cases k with
    | onum =>
      have := h4.onum f s hf
      cases hl : (given f as).getLast? with
      | none => rw [hl] at this; simp only [getInt, this]; rfl
      | some v =>
        rw [hl] at this
        obtain ⟨n, hn, hr⟩ := hok f .onum v (List.mem_of_getLast? hl) ⟨s, hf⟩
        refine ⟨n, hn, ?_⟩
        have hs := (C67_stoi v).1 n hn hr
        have : intOf v = n := by
          unfold stoi at hs
          unfold intOf
          cases hst : strtol v with
          | none => rw [hst] at hs; cases hs
          | some m =>
            rw [hst] at hs; simp only at hs
            split at hs
            · cases hs
            · cases hs; rfl
        simp_all [getInt]
    | spin =>
      have := h4.spin f s hf
      cases hl : (given f as).getLast? with
      | none => rw [hl] at this; simp only [getStr, this]; rfl
      | some v => rw [hl] at this; simp only [getStr, this]; rfl
    | otype =>
      have := h4.otype f s hf
      cases hl : (given f as).getLast? with
      | none => rw [hl] at this; simp only [getStr, this]; rfl
      | some v => rw [hl] at this; simp only [getStr, this]; rfl
    | pun =>
      have := h4.fileStr f ((value_file _ hf).2 (.inl rfl))
      cases hl : (given f as).getLast? with
      | none =>
        rw [hl] at this
        have hsw : q.switchArg.get f = none := by
          rw [h4.switchArg]
          have hk : ∀ x ∈ fileNames, (calcSwitchArg (D := D)).get x = none := by
            simp only [fileNames, List.mem_cons, List.not_mem_nil, or_false]
            rintro x (rfl | rfl | rfl | rfl | rfl | rfl) <;> rfl
          exact hk f ((value_file _ hf).2 (.inl rfl))
        simp only [getStr, this, hsw]
      | some v => rw [hl] at this; simp only [getStr, this]
    | log =>
      have := h4.fileStr f ((value_file _ hf).2 (.inr rfl))
      cases hl : (given f as).getLast? with
      | none =>
        rw [hl] at this
        have hsw : q.switchArg.get f = none := by
          rw [h4.switchArg]
          have hk : ∀ x ∈ fileNames, (calcSwitchArg (D := D)).get x = none := by
            simp only [fileNames, List.mem_cons, List.not_mem_nil, or_false]
            rintro x (rfl | rfl | rfl | rfl | rfl | rfl) <;> rfl
          exact hk f ((value_file _ hf).2 (.inr rfl))
        simp only [getStr, this, hsw]
      | some v => rw [hl] at this; simp only [getStr, this]
  · rw [h] at h'; cases h'
  · rw [h] at h'; cases h'

/-- C59 (which command lines are accepted): exactly those that say at least one thing besides asking for information, and
read as flags with values of the right kind. The reading is unique. -/
theorem C59_accepted (fs : FS) (args : List Str) (hfit : ∀ v ∈ args, Fits v) :
    ((∃ q, parse fs (calcJ (D := D)) args = .ok q) ↔ ∃ as, Reads args as ∧ as ≠ [] ∧ ∀ a ∈ as, a.Ok) ∧
    (∀ as bs, Reads args as → Reads args bs → as = bs) := by
  refine ⟨?_, fun _ _ => Reads.unique⟩
  rcases parse_outcome (D := D) fs args hfit with ⟨as, q', h1, h2, h0, h3, h4⟩ | ⟨e, h', h1, h2⟩ | ⟨h', h1⟩
  · exact ⟨fun _ => ⟨as, h1, h0, h2⟩, fun _ => ⟨q', h3⟩⟩
  · constructor
    · rintro ⟨q, hq⟩; rw [hq] at h'; cases h'
    · rintro ⟨as, ha, ha0, hok⟩
      rcases h1 with rfl | h1
      · cases ha; exact absurd rfl ha0
      · exact absurd ⟨as, ha, hok⟩ h1
  · constructor
    · rintro ⟨q, hq⟩; rw [hq] at h'; cases h'
    · rintro ⟨as, ha, ha0, hok⟩
      rcases h1 with h1 | h1
      · exfalso
        apply ha0
        have : ∀ {ts as}, Reads ts as → (∀ t ∈ ts, t ∈ infoTokens) → as = [] := by
          intro ts as h
          induction h with
          | nil => intro _; rfl
          | info h _ ih => intro hh; exact ih (fun t ht => hh t (by simp [ht]))
          | value h ht _ _ => intro hh; exact absurd (hh _ (by simp)) (value_token h ht).1
          | switch h _ _ _ => intro hh; exact absurd (hh _ (by simp)) (switch_tokens _ h).1
        exact this ha h1.2
      · exact absurd h1 ha.not_stops

example : parse (fun _ => true) (calcJ (D := D)) [lit "-s_1", lit "Beta", lit "--spin_1", lit "Alpha"] ≠ .throw .invalidArgument ∧
    Reads [lit "-s_1", lit "Beta", lit "--spin_1", lit "Alpha"]
      [.value (lit "--spin_1") .spin (lit "Beta"), .value (lit "--spin_1") .spin (lit "Alpha")] := by
  have hr : Reads [lit "-s_1", lit "Beta", lit "--spin_1", lit "Alpha"]
      [.value (lit "--spin_1") .spin (lit "Beta"), .value (lit "--spin_1") .spin (lit "Alpha")] :=
    .value (s := lit "-s_1") (by decide) (.inr rfl) (.value (s := lit "-s_1") (by decide) (.inl rfl) .nil)
  refine ⟨?_, hr⟩
  obtain ⟨q, hq⟩ := (C59_accepted (D := D) (fun _ => true) _ (by
    intro v hv
    have : ∀ v ∈ [lit "-s_1", lit "Beta", lit "--spin_1", lit "Alpha"], v.length < 100 := by decide
    have := this v hv
    unfold Fits; omega)).1.2 ⟨_, hr, by simp, by
      intro a ha
      simp only [List.mem_cons, List.not_mem_nil, or_false] at ha
      rcases ha with rfl | rfl
      · exact .inr rfl
      · exact .inl rfl⟩
  rw [hq]; intro h; cases h

/-! ### C60 -/

/-- What never changes in the parser while parsing. -/
private structure Inv (p : Parser D) : Prop extends Cfg p where
  noFile : ∀ g ∉ fileNames, p.fileArg.get g = none
  isFile : ∀ g ∈ fileNames, (p.fileArg.get g).isSome = true

omit [Dbl D] in
private theorem Inv.setVal {fs : FS} {p q : Parser D} (h : Inv p) {f s v : Str} {k : Kind} (hf : (f, s, k) ∈ valueFlags)
    (hq : setVal fs p f k v = .ok q) : Inv q := by
  cases k with
  | spin =>
    simp only [Args.setVal] at hq
    split at hq
    · cases hq; exact ⟨⟨h.strArg, h.switchArg, h.intArg, h.doubleArg, h.names⟩, h.noFile, h.isFile⟩
    · cases hq
  | otype =>
    simp only [Args.setVal] at hq
    split at hq
    · cases hq; exact ⟨⟨h.strArg, h.switchArg, h.intArg, h.doubleArg, h.names⟩, h.noFile, h.isFile⟩
    · cases hq
  | onum =>
    simp only [Args.setVal, Res.bind_eq_ok] at hq
    obtain ⟨n, -, hq⟩ := hq
    cases hq; exact ⟨⟨h.strArg, h.switchArg, h.intArg, h.doubleArg, h.names⟩, h.noFile, h.isFile⟩
  | pun =>
    have hm := (value_file _ hf).2 (.inl rfl)
    simp only [Args.setVal] at hq
    split at hq
    · cases hq
    · rw [Res.bind_eq_ok] at hq
      obtain ⟨a', -, hq⟩ := hq
      cases hq
      refine ⟨⟨h.strArg, h.switchArg, h.intArg, h.doubleArg, h.names⟩, ?_, ?_⟩
      · intro g hg
        have hne : g ≠ f := by rintro rfl; exact hg hm
        rw [Map.get_set_ne _ hne]; exact h.noFile g hg
      · intro g hg
        rw [Map.get_set]; split
        · rfl
        · exact h.isFile g hg
  | log =>
    have hm := (value_file _ hf).2 (.inr rfl)
    simp only [Args.setVal] at hq
    split at hq
    · cases hq
    · rw [Res.bind_eq_ok] at hq
      obtain ⟨a', -, hq⟩ := hq
      cases hq
      refine ⟨⟨h.strArg, h.switchArg, h.intArg, h.doubleArg, h.names⟩, ?_, ?_⟩
      · intro g hg
        have hne : g ≠ f := by rintro rfl; exact hg hm
        rw [Map.get_set_ne _ hne]; exact h.noFile g hg
      · intro g hg
        rw [Map.get_set]; split
        · rfl
        · exact h.isFile g hg

private theorem SameFlags.head {ts ts' : List Str} (h : SameFlags ts ts') :
    (ts = ts') ∨ ∃ u us u' us', ts = u :: us ∧ ts' = u' :: us' ∧ u ∈ flagTokens ∧ u' ∈ flagTokens := by
  cases h with
  | same => exact .inl rfl
  | help h h' _ =>
    have : ∀ t ∈ [lit "--help", lit "-h"], t ∈ flagTokens := by decide
    exact .inr ⟨_, _, _, _, rfl, rfl, this _ h, this _ h'⟩
  | cite h h' _ =>
    have : ∀ t ∈ [lit "--citation", lit "-cite"], t ∈ flagTokens := by decide
    exact .inr ⟨_, _, _, _, rfl, rfl, this _ h, this _ h'⟩
  | counterPoise h h' _ =>
    have : ∀ t ∈ [lit "--counter_poise", lit "-cp"], t ∈ flagTokens := by decide
    exact .inr ⟨_, _, _, _, rfl, rfl, this _ h, this _ h'⟩
  | value h ht ht' _ =>
    have := known_tokens.1 _ h
    refine .inr ⟨_, _, _, _, rfl, rfl, ?_, ?_⟩
    · rcases ht with rfl | rfl; exacts [this.1, this.2]
    · rcases ht' with rfl | rfl; exacts [this.1, this.2]
  | missing h ht ht' =>
    have := known_tokens.1 _ h
    refine .inr ⟨_, _, _, _, rfl, rfl, ?_, ?_⟩
    · rcases ht with rfl | rfl; exacts [this.1, this.2]
    · rcases ht' with rfl | rfl; exacts [this.1, this.2]

private theorem sameFlags_loop (fs : FS) (size : Nat) {ts ts' : List Str} (h : SameFlags ts ts') :
    ∀ (allowed : Nat) (p : Parser D), Inv p → parseLoop fs size 0 allowed p ts = parseLoop fs size 0 allowed p ts' := by
  induction h with
  | same => intros; rfl
  | help h h' _ ih =>
    intro allowed p hp
    have : ∀ t ∈ [lit "--help", lit "-h"], t ∈ infoTokens := by decide
    rw [parseLoop_info _ _ _ _ _ (this _ h), parseLoop_info _ _ _ _ _ (this _ h'), ih _ p hp]
  | cite h h' _ ih =>
    intro allowed p hp
    have : ∀ t ∈ [lit "--citation", lit "-cite"], t ∈ infoTokens := by decide
    rw [parseLoop_info _ _ _ _ _ (this _ h), parseLoop_info _ _ _ _ _ (this _ h'), ih _ p hp]
  | @counterPoise t t' ts ts' h h' hs ih =>
    intro allowed p hp
    have hk : ∀ t ∈ [lit "--counter_poise", lit "-cp"], (t, lit "--counter_poise") ∈ switchTokens := by decide
    have k1 := hk _ h
    have k2 := hk _ h'
    rw [parseLoop_other _ _ _ _ _ (switch_tokens _ k1).1 (switch_tokens _ k1).2,
      parseLoop_other _ _ _ _ _ (switch_tokens _ k2).1 (switch_tokens _ k2).2]
    rcases hs.head with rfl | ⟨u, us, u', us', rfl, rfl, hu, hu'⟩
    · by_cases hn : ∀ u us, ts = u :: us → u ∈ flagTokens
      · rw [parseArg_switch fs p hp.toCfg k1 _ hp.noFile hn, parseArg_switch fs p hp.toCfg k2 _ hp.noFile hn]
      · cases ts with
        | nil => exact absurd (by intro u us h; cases h) hn
        | cons v r =>
          have hv : v ∉ flagTokens := by
            intro hv; apply hn; intro u us h; cases h; exact hv
          obtain ⟨a1, a2, a3⟩ := parseArg_switch_value fs p hp.toCfg k1 r hp.noFile hv
          obtain ⟨b1, b2, b3⟩ := parseArg_switch_value fs p hp.toCfg k2 r hp.noFile hv
          by_cases w1 : v ∈ onWords
          · rw [a2 w1, b2 w1]
          · by_cases w2 : v ∈ offWords
            · rw [a3 w2, b3 w2]
            · rw [a1 w1 w2, b1 w1 w2]
    · rw [parseArg_switch fs p hp.toCfg k1 _ hp.noFile (by intro a b e; cases e; exact hu),
        parseArg_switch fs p hp.toCfg k2 _ hp.noFile (by intro a b e; cases e; exact hu')]
      simp only [Res.ok_bind]
      exact ih _ _ ⟨⟨hp.strArg, hp.switchArg, hp.intArg, hp.doubleArg, hp.names⟩, hp.noFile, hp.isFile⟩
  | @value f s k t t' v ts ts' h ht ht' hs ih =>
    intro allowed p hp
    obtain ⟨n1, n2, -⟩ := value_token h ht
    obtain ⟨m1, m2, -⟩ := value_token h ht'
    rw [parseLoop_other _ _ _ _ _ n1 n2, parseLoop_other _ _ _ _ _ m1 m2,
      parseArg_value fs p hp.toCfg h ht _ hp.noFile hp.isFile, parseArg_value fs p hp.toCfg h ht' _ hp.noFile hp.isFile]
    simp only
    cases hq : setVal fs p f k v with
    | ok q =>
      simp only [Res.ok_bind]
      rw [parseLoop, parseLoop]
      exact ih _ q (hp.setVal h hq)
    | _ => rfl
  | missing h ht ht' =>
    intro allowed p hp
    obtain ⟨n1, n2, -⟩ := value_token h ht
    obtain ⟨m1, m2, -⟩ := value_token h ht'
    rw [parseLoop_other _ _ _ _ _ n1 n2, parseLoop_other _ _ _ _ _ m1 m2,
      parseArg_value fs p hp.toCfg h ht _ hp.noFile hp.isFile, parseArg_value fs p hp.toCfg h ht' _ hp.noFile hp.isFile]

private theorem sameFlags_length {ts ts' : List Str} (h : SameFlags ts ts') : ts.length = ts'.length := by
  induction h <;> simp_all

/-- C60 (what holds): except for the version flag, giving flags by their full name or by their abbreviation makes no
difference to what `parse` does, whether it succeeds or not. -/
theorem C60_abbrev_partial (fs : FS) (args args' : List Str) (h : SameFlags args args') :
    parse fs (calcJ (D := D)) args = parse fs calcJ args' := by
  have hl := sameFlags_length h
  have hi := After.init (D := D) fs
  unfold parse
  rw [← hl, sameFlags_loop fs _ h 2 calcJ ⟨hi.toCfg, hi.noFile, hi.isFile⟩]
  cases args with
  | nil =>
    have : args' = [] := List.eq_nil_of_length_eq_zero (by rw [← hl]; rfl)
    subst this; rfl
  | cons a as =>
    cases args' with
    | nil => simp at hl
    | cons b bs => rw [if_neg (by simp), if_neg (by simp)]

/-- C60 (refuted for the version flag): `-v` is the registered abbreviation of `--version`, but `--version` prints the
version and stops with success whereas `-v` carries on (and is then an ordinary switch). -/
theorem C60_refuted (fs : FS) :
    (lit "--version", lit "-v") ∈ (calcJ (D := D)).flags.map (fun f => (f.1, f.2.1)) ∧
    parse fs (calcJ (D := D)) [lit "--version"] = .exit 0 ∧
    ∃ q, parse fs (calcJ (D := D)) [lit "-v"] = .ok q := by
  refine ⟨by rw [calcJ_flags]; decide, rfl, ?_⟩
  apply (C59_accepted fs [lit "-v"] (by intro v hv; simp at hv; subst hv; unfold Fits; decide)).1.2
  exact ⟨[.switch (lit "--version")], .switch (by decide) (by simp) .nil, by simp, by
    intro a ha; simp at ha; subst ha; trivial⟩

example : SameFlags [lit "--pun_1", lit "-h", lit "-cp", lit "-h", lit "--log_P"] [lit "-p_1", lit "-h", lit "--counter_poise", lit "--help", lit "-l_P"] :=
  .value (f := lit "--pun_1") (s := lit "-p_1") (k := .pun) (by decide) (.inl rfl) (.inr rfl)
    (.counterPoise (by decide) (by decide) (.help (by decide) (by decide)
      (.missing (f := lit "--log_P") (s := lit "-l_P") (k := .log) (by decide) (.inl rfl) (.inr rfl))))

/-! ### C61, C62: switches -/

/-- C61 (what holds): a switch given alone is turned on. -/
theorem C61_alone_partial (fs : FS) (args : List Str) (hfit : ∀ v ∈ args, Fits v) (q : Parser D)
    (h : parse fs calcJ args = .ok q) :
    ∃ as, Reads args as ∧ (getInt q (lit "--counter_poise") = .ok (if turnedOn (lit "--counter_poise") as then 1 else 0)) := by
  rcases parse_outcome (D := D) fs args hfit with ⟨as, q', h1, h2, -, h3, h4⟩ | ⟨e, h', -⟩ | ⟨h', -⟩
  · rw [h] at h3; cases h3
    refine ⟨as, h1, ?_⟩
    have a1 := h4.switchStr (lit "--counter_poise") (by decide)
    have a2 := h4.switchInt (lit "--counter_poise") (by decide)
    have a3 : q.switchArg.get (lit "--counter_poise") = some newArgumentSwitch := by rw [h4.switchArg]; rfl
    unfold getInt
    cases ht : turnedOn (lit "--counter_poise") as with
    | true => rw [a2, ht]; rfl
    | false => rw [a2, ht, a3, a1]; rfl
  · rw [h] at h'; cases h'
  · rw [h] at h'; cases h'

/-- C61 (refuted): a switch followed by an explicit value, which the documentation allows, is never accepted, wherever it
occurs on the command line. -/
theorem C61_refuted (fs : FS) (pre post : List Str) (as : List Asg) (hpre : Reads pre as) (t f w : Str)
    (ht : (t, f) ∈ switchTokens) (hw : w ∈ [lit "ON", lit "OFF", lit "TRUE", lit "FALSE", lit "1", lit "0"])
    (hfit : ∀ v ∈ pre ++ t :: w :: post, Fits v) :
    ∃ e, parse fs (calcJ (D := D)) (pre ++ t :: w :: post) = .throw e := by
  have hwf : ∀ w ∈ [lit "ON", lit "OFF", lit "TRUE", lit "FALSE", lit "1", lit "0"], w ∉ flagTokens := by decide
  have hw' := hwf w hw
  rcases parse_outcome (D := D) fs _ hfit with ⟨bs, q, h1, -⟩ | ⟨e, h, -⟩ | ⟨-, h | h⟩
  · obtain ⟨cs, h⟩ := reads_append hpre h1
    exact absurd (((reads_switch ht).1 h).1 w post rfl) hw'
  · exact ⟨e, h⟩
  · exact absurd (known_tokens.2.2 _ (h.2 w (by simp))) hw'
  · exact absurd (((stops_switch ht).1 (stops_append hpre h)).1 w post rfl) hw'

/-- C62 (what holds): `getStr` and `getInt` agree on a switch that was not given. -/
theorem C62_off_partial (fs : FS) (args : List Str) (hfit : ∀ v ∈ args, Fits v) (q : Parser D) (as : List Asg)
    (h : parse fs calcJ args = .ok q) (hr : Reads args as) (f : Str)
    (hf : f ∈ [lit "--counter_poise", lit "--citation", lit "--version"]) (hoff : turnedOn f as = false) :
    getStr q f = .ok (lit "OFF") ∧ getInt q f = .ok 0 := by
  rcases parse_outcome (D := D) fs args hfit with ⟨as', q', h1, h2, -, h3, h4⟩ | ⟨e, h', -⟩ | ⟨h', -⟩
  · rw [h] at h3; cases h3
    cases h1.unique hr
    have a1 := h4.switchStr f hf
    have a2 := h4.switchInt f hf
    have a3 : q.switchArg.get f = some newArgumentSwitch := by
      rw [h4.switchArg]
      simp only [List.mem_cons, List.not_mem_nil, or_false] at hf
      rcases hf with rfl | rfl | rfl <;> rfl
    refine ⟨by simp only [getStr, a1], ?_⟩
    unfold getInt; rw [a2, hoff, a3, a1]; rfl
  · rw [h] at h'; cases h'
  · rw [h] at h'; cases h'

/-- C62 (refuted): on every accepted command line on which a switch was given, `getInt` says it is on and `getStr` says it
is OFF. -/
theorem C62_refuted (fs : FS) (args : List Str) (hfit : ∀ v ∈ args, Fits v) (q : Parser D) (as : List Asg)
    (h : parse fs calcJ args = .ok q) (hr : Reads args as) (f : Str)
    (hf : f ∈ [lit "--counter_poise", lit "--citation", lit "--version"]) (hon : turnedOn f as = true) :
    getStr q f = .ok (lit "OFF") ∧ getInt q f = .ok 1 := by
  rcases parse_outcome (D := D) fs args hfit with ⟨as', q', h1, h2, -, h3, h4⟩ | ⟨e, h', -⟩ | ⟨h', -⟩
  · rw [h] at h3; cases h3
    cases h1.unique hr
    have a1 := h4.switchStr f hf
    have a2 := h4.switchInt f hf
    rw [hon] at a2
    exact ⟨by simp only [getStr, a1], by simp only [getInt, a2]; rfl⟩
  · rw [h] at h'; cases h'
  · rw [h] at h'; cases h'

/-- The hypotheses of `C62_refuted` are met by the command line `-cp`. -/
theorem C62_refuted_instance (fs : FS) : ∃ q : Parser D, parse fs calcJ [lit "-cp"] = .ok q ∧
    getStr q (lit "--counter_poise") = .ok (lit "OFF") ∧ getInt q (lit "--counter_poise") = .ok 1 := by
  have hr : Reads [lit "-cp"] [.switch (lit "--counter_poise")] := .switch (by decide) (by simp) .nil
  have hfit : ∀ v ∈ [lit "-cp"], Fits v := by intro v hv; simp at hv; subst hv; unfold Fits; decide
  obtain ⟨q, hq⟩ := (C59_accepted (D := D) fs [lit "-cp"] hfit).1.2 ⟨_, hr, by simp, by
    intro a ha; simp at ha; subst ha; trivial⟩
  exact ⟨q, hq, C62_refuted fs _ hfit q _ hq hr _ (by decide) (by decide)⟩

/-! ### C63 -/

/-- C63: every value on an accepted command line is of the kind its flag demands. -/
theorem C63_valid (fs : FS) (args : List Str) (hfit : ∀ v ∈ args, Fits v) (q : Parser D) (as : List Asg)
    (h : parse fs calcJ args = .ok q) (hr : Reads args as) (f : Str) (k : Kind) (v : Str) (hv : .value f k v ∈ as) :
    match k with
    | .pun => ∃ dir core ext, PathParts v dir core ext ∧ ext ∈ [lit ".pun", lit ".orb", lit ".7"]
    | .log => ∃ dir core ext, PathParts v dir core ext ∧ ext = lit ".log"
    | .spin => v = lit "Alpha" ∨ v = lit "Beta"
    | .otype => v = lit "HOMO" ∨ v = lit "LUMO"
    | .onum => ∃ n, IntText v n ∧ -2 ^ 31 ≤ n ∧ n < 2 ^ 31 := by
  obtain ⟨bs, h1, -, h2⟩ := (C59_accepted (D := D) fs args hfit).1.1 ⟨q, h⟩
  cases hr.unique h1
  have := h2 _ hv
  cases k <;> exact this

/-- C63 (every command line has one of three outcomes): accepted, an exception, or a normal exit; the last happens exactly
when it asks for information only or reaches a version flag after nothing but valid input. In particular nothing undefined
happens. -/
theorem C63_outcomes (fs : FS) (args : List Str) (hfit : ∀ v ∈ args, Fits v) :
    ((∃ q, parse fs (calcJ (D := D)) args = .ok q) ∨ (∃ e, parse fs (calcJ (D := D)) args = .throw e) ∨
      parse fs (calcJ (D := D)) args = .exit 0) ∧
    (parse fs (calcJ (D := D)) args = .exit 0 ↔ (args ≠ [] ∧ ∀ t ∈ args, t ∈ infoTokens) ∨ Stops args) := by
  rcases parse_outcome (D := D) fs args hfit with ⟨as', q', h1, h2, h0, h3, h4⟩ | ⟨e, h', h1, h2⟩ | ⟨h', h1⟩
  · refine ⟨.inl ⟨q', h3⟩, ?_⟩
    constructor
    · intro h; rw [h3] at h; cases h
    · rintro (⟨a, b⟩ | h)
      · exfalso; apply h0
        have : ∀ {ts as}, Reads ts as → (∀ t ∈ ts, t ∈ infoTokens) → as = [] := by
          intro ts as h
          induction h with
          | nil => intro _; rfl
          | info h _ ih => intro hh; exact ih (fun t ht => hh t (by simp [ht]))
          | value h ht _ _ => intro hh; exact absurd (hh _ (by simp)) (value_token h ht).1
          | switch h _ _ _ => intro hh; exact absurd (hh _ (by simp)) (switch_tokens _ h).1
        exact this h1 b
      · exact absurd h h1.not_stops
  · refine ⟨.inr (.inl ⟨e, h'⟩), ?_⟩
    constructor
    · intro h; rw [h'] at h; cases h
    · rintro (⟨a, b⟩ | h)
      · exfalso
        rcases h1 with h1 | h1
        · exact a h1
        · apply h1
          refine ⟨[], ?_, by simp⟩
          have : ∀ ts : List Str, (∀ t ∈ ts, t ∈ infoTokens) → Reads ts [] := by
            intro ts
            induction ts with
            | nil => intro _; exact .nil
            | cons t ts ih => intro h; exact .info (h t (by simp)) (ih (fun x hx => h x (by simp [hx])))
          exact this _ b
      · exact absurd h h2
  · exact ⟨.inr (.inr h'), ⟨fun _ => h1, fun _ => h'⟩⟩

end
end Verif.Args
