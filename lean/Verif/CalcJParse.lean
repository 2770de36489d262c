import Verif.CalcJLoop
/-
The outcome of `parse` of the calc_J parser on every command line.
-/
namespace Verif.Args
open Strings
section
variable {D : Type}

theorem parseLoop_info [Dbl D] (fs : FS) (size allowed : Nat) (p : Parser D) {t : Str} (rest : List Str) (h : t ∈ infoTokens) :
    parseLoop fs size 0 allowed p (t :: rest) =
      if allowed = size then .exit 0 else parseLoop fs size 0 (allowed + 1) p rest := by
  simp only [infoTokens, List.mem_cons, List.not_mem_nil, or_false] at h
  rcases h with rfl | rfl | rfl | rfl <;> rfl

theorem parseLoop_version [Dbl D] (fs : FS) (size allowed : Nat) (p : Parser D) {t : Str} (rest : List Str) (h : t ∈ versionTokens) :
    parseLoop fs size 0 allowed p (t :: rest) = .exit 0 := by
  simp only [versionTokens, List.mem_cons, List.not_mem_nil, or_false] at h
  rcases h with rfl | rfl <;> rfl

theorem parseLoop_other [Dbl D] (fs : FS) (size allowed : Nat) (p : Parser D) {t : Str} (rest : List Str)
    (h1 : t ∉ infoTokens) (h2 : t ∉ versionTokens) :
    parseLoop fs size 0 allowed p (t :: rest) =
      (parseArg fs p t rest >>= fun r => parseLoop fs size r.2 allowed r.1 rest) := by
  simp only [infoTokens, List.mem_cons, List.not_mem_nil, or_false, not_or] at h1
  simp only [versionTokens, List.mem_cons, List.not_mem_nil, or_false, not_or] at h2
  rw [parseLoop]
  simp only [h1.1, h1.2.1, h1.2.2.1, h1.2.2.2, h2.1, h2.2, or_self, if_false]

theorem value_tokens : ∀ x ∈ valueFlags, x.1 ∉ infoTokens ∧ x.2.1 ∉ infoTokens ∧ x.1 ∉ versionTokens ∧ x.2.1 ∉ versionTokens ∧
    (∀ y ∈ switchTokens, y.1 ≠ x.1 ∧ y.1 ≠ x.2.1) := by decide
theorem switch_tokens : ∀ x ∈ switchTokens, x.1 ∉ infoTokens ∧ x.1 ∉ versionTokens := by decide
theorem info_version : ∀ t ∈ infoTokens, t ∉ versionTokens := by decide
theorem value_unique : ∀ x ∈ valueFlags, ∀ y ∈ valueFlags,
    (x.1 = y.1 ∨ x.1 = y.2.1 ∨ x.2.1 = y.1 ∨ x.2.1 = y.2.1) → x = y := by decide
theorem switch_unique : ∀ x ∈ switchTokens, ∀ y ∈ switchTokens, x.1 = y.1 → x = y := by decide

theorem value_token {f s t : Str} {k : Kind} (h : (f, s, k) ∈ valueFlags) (ht : t = f ∨ t = s) :
    t ∉ infoTokens ∧ t ∉ versionTokens ∧ ∀ y ∈ switchTokens, y.1 ≠ t := by
  obtain ⟨a, b, c, d, e⟩ := value_tokens _ h
  rcases ht with rfl | rfl
  · exact ⟨a, c, fun y hy => (e y hy).1⟩
  · exact ⟨b, d, fun y hy => (e y hy).2⟩

theorem value_same {f s t f' s' : Str} {k k' : Kind} (h : (f, s, k) ∈ valueFlags) (ht : t = f ∨ t = s)
    (h' : (f', s', k') ∈ valueFlags) (ht' : t = f' ∨ t = s') : f = f' ∧ s = s' ∧ k = k' := by
  have := value_unique _ h _ h' (by
    rcases ht with rfl | rfl <;> rcases ht' with rfl | rfl <;> simp)
  simpa using this

/-! How a command line reads is decided by its first token. -/

theorem reads_info {t : Str} {ts : List Str} {as : List Asg} (h : t ∈ infoTokens) : Reads (t :: ts) as ↔ Reads ts as := by
  constructor
  · intro hr
    cases hr with
    | info _ hr => exact hr
    | value h' ht _ => exact absurd h (value_token h' ht).1
    | switch h' _ _ => exact absurd h (switch_tokens _ h').1
  · exact .info h

theorem stops_info {t : Str} {ts : List Str} (h : t ∈ infoTokens) : Stops (t :: ts) ↔ Stops ts := by
  constructor
  · intro hr
    cases hr with
    | version h' => exact absurd h' (info_version _ h)
    | info _ hr => exact hr
    | value h' ht _ _ => exact absurd h (value_token h' ht).1
    | switch h' _ _ => exact absurd h (switch_tokens _ h').1
  · exact .info h

theorem reads_version {t : Str} {ts : List Str} {as : List Asg} (h : t ∈ versionTokens) : ¬ Reads (t :: ts) as := by
  intro hr
  cases hr with
  | info h' _ => exact info_version _ h' h
  | value h' ht _ => exact (value_token h' ht).2.1 h
  | switch h' _ _ => exact (switch_tokens _ h').2 h

theorem reads_value {f s t v : Str} {k : Kind} {ts : List Str} {as : List Asg} (h : (f, s, k) ∈ valueFlags) (ht : t = f ∨ t = s) :
    Reads (t :: v :: ts) as ↔ ∃ bs, as = .value f k v :: bs ∧ Reads ts bs := by
  constructor
  · intro hr
    cases hr with
    | info h' _ => exact absurd h' (value_token h ht).1
    | value h' ht' hr =>
      obtain ⟨rfl, rfl, rfl⟩ := value_same h ht h' ht'
      exact ⟨_, rfl, hr⟩
    | switch h' _ _ => exact absurd rfl ((value_token h ht).2.2 _ h')
  · rintro ⟨bs, rfl, hr⟩
    exact .value h ht hr

theorem reads_value_nil {f s t : Str} {k : Kind} {as : List Asg} (h : (f, s, k) ∈ valueFlags) (ht : t = f ∨ t = s) :
    ¬ Reads [t] as := by
  intro hr
  cases hr with
  | info h' _ => exact (value_token h ht).1 h'
  | switch h' _ _ => exact (value_token h ht).2.2 _ h' rfl

theorem stops_value {f s t v : Str} {k : Kind} {ts : List Str} (h : (f, s, k) ∈ valueFlags) (ht : t = f ∨ t = s) :
    Stops (t :: v :: ts) ↔ ValueOk k v ∧ Stops ts := by
  constructor
  · intro hr
    cases hr with
    | version h' => exact absurd h' (value_token h ht).2.1
    | info h' _ => exact absurd h' (value_token h ht).1
    | value h' ht' hv hr =>
      obtain ⟨rfl, rfl, rfl⟩ := value_same h ht h' ht'
      exact ⟨hv, hr⟩
    | switch h' _ _ => exact absurd rfl ((value_token h ht).2.2 _ h')
  · rintro ⟨hv, hr⟩
    exact .value h ht hv hr

theorem stops_value_nil {f s t : Str} {k : Kind} (h : (f, s, k) ∈ valueFlags) (ht : t = f ∨ t = s) : ¬ Stops [t] := by
  intro hr
  cases hr with
  | version h' => exact (value_token h ht).2.1 h'
  | info h' _ => exact (value_token h ht).1 h'
  | switch h' _ _ => exact (value_token h ht).2.2 _ h' rfl

theorem reads_switch {t f : Str} {ts : List Str} {as : List Asg} (h : (t, f) ∈ switchTokens) :
    Reads (t :: ts) as ↔ (∀ u us, ts = u :: us → u ∈ flagTokens) ∧ ∃ bs, as = .switch f :: bs ∧ Reads ts bs := by
  constructor
  · intro hr
    cases hr with
    | info h' _ => exact absurd h' (switch_tokens _ h).1
    | value h' ht _ => exact absurd rfl ((value_token h' ht).2.2 _ h)
    | switch h' hn hr =>
      have := switch_unique _ h _ h' rfl
      simp only [Prod.mk.injEq, true_and] at this
      subst this
      exact ⟨hn, _, rfl, hr⟩
  · rintro ⟨hn, bs, rfl, hr⟩
    exact .switch h hn hr

theorem stops_switch {t f : Str} {ts : List Str} (h : (t, f) ∈ switchTokens) :
    Stops (t :: ts) ↔ (∀ u us, ts = u :: us → u ∈ flagTokens) ∧ Stops ts := by
  constructor
  · intro hr
    cases hr with
    | version h' => exact absurd h' (switch_tokens _ h).2
    | info h' _ => exact absurd h' (switch_tokens _ h).1
    | value h' ht _ _ => exact absurd rfl ((value_token h' ht).2.2 _ h)
    | switch h' hn hr => exact ⟨hn, hr⟩
  · rintro ⟨hn, hr⟩
    exact .switch h hn hr

theorem tokens_known (t : Str) : t ∈ infoTokens ∨ t ∈ versionTokens ∨ (∃ f s k, (f, s, k) ∈ valueFlags ∧ (t = f ∨ t = s)) ∨
    (∃ f, (t, f) ∈ switchTokens) ∨ t ∉ flagTokens := by
  by_cases h : t ∈ flagTokens
  · have key : ∀ t ∈ flagTokens, t ∈ infoTokens ∨ t ∈ versionTokens ∨ (∃ x ∈ valueFlags, t = x.1 ∨ t = x.2.1) ∨
        (∃ x ∈ switchTokens, t = x.1) := by decide
    rcases key t h with h | h | ⟨⟨f, s, k⟩, hx, ht⟩ | ⟨⟨a, f⟩, hx, rfl⟩
    · exact .inl h
    · exact .inr (.inl h)
    · exact .inr (.inr (.inl ⟨f, s, k, hx, ht⟩))
    · exact .inr (.inr (.inr (.inl ⟨f, hx⟩)))
  · exact .inr (.inr (.inr (.inr h)))

theorem known_tokens : (∀ x ∈ valueFlags, x.1 ∈ flagTokens ∧ x.2.1 ∈ flagTokens) ∧ (∀ x ∈ switchTokens, x.1 ∈ flagTokens) ∧
    (∀ t ∈ infoTokens, t ∈ flagTokens) := by decide

theorem reads_unknown {t : Str} {ts : List Str} {as : List Asg} (h : t ∉ flagTokens) : ¬ Reads (t :: ts) as := by
  intro hr
  cases hr with
  | info h' _ => exact h (known_tokens.2.2 _ h')
  | value h' ht _ =>
    rcases ht with rfl | rfl
    · exact h (known_tokens.1 _ h').1
    · exact h (known_tokens.1 _ h').2
  | switch h' _ _ => exact h (known_tokens.2.1 _ h')

theorem stops_unknown {t : Str} {ts : List Str} (h : t ∉ flagTokens) (h2 : t ∉ versionTokens) : ¬ Stops (t :: ts) := by
  intro hr
  cases hr with
  | version h' => exact h2 h'
  | info h' _ => exact h (known_tokens.2.2 _ h')
  | value h' ht _ =>
    rcases ht with rfl | rfl
    · exact h (known_tokens.1 _ h').1
    · exact h (known_tokens.1 _ h').2
  | switch h' _ _ => exact h (known_tokens.2.1 _ h')

/-- A command line reads in at most one way. -/
theorem Reads.unique {ts : List Str} {as bs : List Asg} (h1 : Reads ts as) (h2 : Reads ts bs) : as = bs := by
  induction h1 generalizing bs with
  | nil => cases h2; rfl
  | info h _ ih => exact ih ((reads_info h).1 h2)
  | value h ht _ ih =>
    obtain ⟨cs, rfl, h3⟩ := (reads_value h ht).1 h2
    rw [ih h3]
  | switch h hn _ ih =>
    obtain ⟨-, cs, rfl, h3⟩ := (reads_switch h).1 h2
    rw [ih h3]

theorem Reads.not_stops {ts : List Str} {as : List Asg} (h : Reads ts as) : ¬ Stops ts := by
  induction h with
  | nil => intro h; cases h
  | info h _ ih => rwa [stops_info h]
  | value h ht _ ih => rw [stops_value h ht]; exact fun hh => ih hh.2
  | switch h hn _ ih => rw [stops_switch h]; exact fun hh => ih hh.2

/-- A non-empty command line of information tokens only. -/
def OnlyInfo (args : List Str) : Prop := args ≠ [] ∧ ∀ t ∈ args, t ∈ infoTokens

/-- The ways the loop over the arguments can end. -/
def LoopOutcome (fs : FS) (size allowed : Nat) (hist : List Asg) (args : List Str) (r : Res (Parser D)) : Prop :=
  (∃ as q, Reads args as ∧ (∀ a ∈ as, a.Ok) ∧ r = .ok q ∧ After fs (hist ++ as) q ∧
    ¬ (allowed + args.length = size + 1 ∧ OnlyInfo args)) ∨
  (∃ e, r = .throw e ∧ (Refused args e ∧ ¬ ∃ as, Reads args as ∧ ∀ a ∈ as, a.Ok) ∧ ¬ Stops args) ∨
  (r = .exit 0 ∧ ((allowed + args.length = size + 1 ∧ OnlyInfo args) ∨ Stops args))

theorem parseLoop_outcome [Dbl D] (fs : FS) (size : Nat) : ∀ (n : Nat) (args : List Str), args.length ≤ n →
    (∀ v ∈ args, Fits v) → ∀ (hist : List Asg) (p : Parser D) (allowed : Nat), After fs hist p →
    allowed + args.length ≤ size + 1 →
    LoopOutcome fs size allowed hist args (parseLoop fs size 0 allowed p args) := by
  intro n
  induction n with
  | zero =>
    intro args hl _ hist p allowed hp _
    have : args = [] := List.eq_nil_of_length_eq_zero (by omega)
    subst this
    exact .inl ⟨[], p, .nil, by simp, by simp [parseLoop], by simpa using hp, by rintro ⟨-, h, -⟩; exact h rfl⟩
  | succ n ih =>
    intro args hl hfit hist p allowed hp hsz
    cases args with
    | nil =>
      exact .inl ⟨[], p, .nil, by simp, by simp [parseLoop], by simpa using hp, by rintro ⟨-, h, -⟩; exact h rfl⟩
    | cons t rest =>
      simp only [List.length_cons] at hl hsz
      have hfr : ∀ v ∈ rest, Fits v := fun v hv => hfit v (by simp [hv])
      rcases tokens_known t with ht | ht | ⟨f, s, k, hf, ht⟩ | ⟨f, hf⟩ | ht
      · -- information
        rw [parseLoop_info fs size allowed p rest ht]
        by_cases hs : allowed = size
        · rw [if_pos hs]
          have : rest = [] := List.eq_nil_of_length_eq_zero (by omega)
          subst this
          exact .inr (.inr ⟨rfl, .inl ⟨by simp [hs], by simp, by simpa using ht⟩⟩)
        · rw [if_neg hs]
          rcases ih rest (by omega) hfr hist p (allowed + 1) hp (by omega) with
            ⟨as, q, h1, h2, h3, h4, h5⟩ | ⟨e, h1, ⟨h0, h2⟩, h3⟩ | ⟨h1, h2⟩
          · refine .inl ⟨as, q, .info ht h1, h2, h3, h4, ?_⟩
            rintro ⟨e1, e2⟩
            by_cases hr : rest = []
            · subst hr; simp at e1; omega
            · exact h5 ⟨by simp only [List.length_cons] at e1; omega, hr, fun x hx => e2.2 x (by simp [hx])⟩
          · refine .inr (.inl ⟨e, h1, ⟨.info ht h0, ?_⟩, ?_⟩)
            · rintro ⟨as, hr, hok⟩
              exact h2 ⟨as, (reads_info ht).1 hr, hok⟩
            · rwa [stops_info ht]
          · refine .inr (.inr ⟨h1, ?_⟩)
            rcases h2 with ⟨e1, e2⟩ | h2
            · refine .inl ⟨by simp only [List.length_cons]; omega, by simp, ?_⟩
              intro x hx
              rcases List.mem_cons.1 hx with rfl | hx
              · exact ht
              · exact e2.2 x hx
            · exact .inr (.info ht h2)
      · -- version
        exact .inr (.inr ⟨parseLoop_version fs size allowed p rest ht, .inr (.version ht)⟩)
      · -- value
        obtain ⟨n1, n2, -⟩ := value_token hf ht
        rw [parseLoop_other fs size allowed p rest n1 n2, parseArg_value fs p hp.toCfg hf ht rest hp.noFile hp.isFile]
        cases rest with
        | nil =>
          refine .inr (.inl ⟨_, rfl, ⟨.missing hf ht, ?_⟩, stops_value_nil hf ht⟩)
          rintro ⟨as, hr, -⟩
          exact reads_value_nil hf ht hr
        | cons v r =>
          simp only [List.length_cons] at hl hsz
          rcases hp.value hf (hfit v (by simp)) with ⟨hv, q, hq, hq'⟩ | ⟨hv, e, hq, hb⟩
          · simp only [hq, Res.ok_bind]
            rw [parseLoop]
            rcases ih r (by omega) (fun x hx => hfr x (by simp [hx])) _ q allowed hq' (by omega) with
              ⟨as, q', h1, h2, h3, h4, h5⟩ | ⟨e, h1, ⟨h0, h2⟩, h3⟩ | ⟨h1, h2⟩
            · refine .inl ⟨.value f k v :: as, q', .value hf ht h1, ?_, h3, by simpa using h4, ?_⟩
              · intro a ha
                rcases List.mem_cons.1 ha with rfl | ha
                · exact hv
                · exact h2 a ha
              · rintro ⟨-, -, e2⟩; exact n1 (e2 t (by simp))
            · refine .inr (.inl ⟨e, h1, ⟨.value hf ht hv h0, ?_⟩, ?_⟩)
              · rintro ⟨as, hr, hok⟩
                obtain ⟨bs, rfl, hr'⟩ := (reads_value hf ht).1 hr
                exact h2 ⟨bs, hr', fun a ha => hok a (by simp [ha])⟩
              · rw [stops_value hf ht]; exact fun h => h3 h.2
            · refine .inr (.inr ⟨h1, ?_⟩)
              rcases h2 with ⟨e1, e2⟩ | h2
              · omega
              · exact .inr (.value hf ht hv h2)
          · simp only [hq, Res.throw_bind]
            refine .inr (.inl ⟨e, rfl, ⟨.bad hf ht hb, ?_⟩, ?_⟩)
            · rintro ⟨as, hr, hok⟩
              obtain ⟨bs, rfl, hr⟩ := (reads_value hf ht).1 hr
              exact hv (hok (.value f k v) (by simp))
            · rw [stops_value hf ht]; exact fun h => hv h.1
      · -- switch
        obtain ⟨n1, n2⟩ := switch_tokens _ hf
        rw [parseLoop_other fs size allowed p rest n1 n2]
        by_cases hn : ∀ u us, rest = u :: us → u ∈ flagTokens
        · rw [parseArg_switch fs p hp.toCfg hf rest hp.noFile hn]
          simp only [Res.ok_bind]
          rcases ih rest (by omega) hfr _ _ allowed (hp.switch hf) (by omega) with
            ⟨as, q', h1, h2, h3, h4, h5⟩ | ⟨e, h1, ⟨h0, h2⟩, h3⟩ | ⟨h1, h2⟩
          · refine .inl ⟨.switch f :: as, q', .switch hf hn h1, ?_, h3, by simpa using h4, ?_⟩
            · intro a ha
              rcases List.mem_cons.1 ha with rfl | ha
              · trivial
              · exact h2 a ha
            · rintro ⟨e1, -, e2⟩; exact n1 (e2 t (by simp))
          · refine .inr (.inl ⟨e, h1, ⟨.switch hf hn h0, ?_⟩, ?_⟩)
            · rintro ⟨as, hr, hok⟩
              obtain ⟨-, bs, rfl, hr'⟩ := (reads_switch hf).1 hr
              exact h2 ⟨bs, hr', fun a ha => hok a (by simp [ha])⟩
            · rw [stops_switch hf]; exact fun h => h3 h.2
          · refine .inr (.inr ⟨h1, ?_⟩)
            rcases h2 with ⟨e1, e2⟩ | h2
            · omega
            · exact .inr (.switch hf hn h2)
        · have ⟨v, r, hr, hv⟩ : ∃ v r, rest = v :: r ∧ v ∉ flagTokens := by
            cases rest with
            | nil => exact absurd (by intro u us h; cases h) hn
            | cons v r =>
              refine ⟨v, r, rfl, fun hv => hn ?_⟩
              intro u us h
              cases h; exact hv
          subst hr
          have hthrow : (parseArg fs p t (v :: r) >>= fun x => parseLoop fs size x.2 allowed x.1 (v :: r)) = .throw .invalidArgument := by
            obtain ⟨c1, c2, c3⟩ := parseArg_switch_value fs p hp.toCfg hf r hp.noFile hv
            by_cases w1 : v ∈ onWords ∨ v ∈ offWords
            · have hvw : v ∉ infoTokens ∧ v ∉ versionTokens := by
                have a : ∀ x ∈ onWords ++ offWords, x ∉ infoTokens ∧ x ∉ versionTokens := by decide
                exact a v (List.mem_append.2 w1)
              rcases w1 with w1 | w1
              · rw [c2 w1]
                simp only [Res.ok_bind]
                rw [parseLoop_other _ _ _ _ _ hvw.1 hvw.2,
                  parseArg_unknown fs { p with strs := p.strs.set f v, ints := p.ints.set f 1 } ⟨hp.strArg, hp.switchArg, hp.intArg, hp.doubleArg, hp.names⟩ hv r hp.noFile]
                rfl
              · rw [c3 w1]
                simp only [Res.ok_bind]
                rw [parseLoop_other _ _ _ _ _ hvw.1 hvw.2,
                  parseArg_unknown fs { p with strs := p.strs.set f v, ints := p.ints.set f 0 } ⟨hp.strArg, hp.switchArg, hp.intArg, hp.doubleArg, hp.names⟩ hv r hp.noFile]
                rfl
            · rw [c1 (fun h => w1 (.inl h)) (fun h => w1 (.inr h))]
              rfl
          rw [hthrow]
          refine .inr (.inl ⟨_, rfl, ⟨.stray hf hv, ?_⟩, ?_⟩)
          · rintro ⟨as, hr, -⟩
            exact hn ((reads_switch hf).1 hr).1
          · rw [stops_switch hf]; exact fun h => hn h.1
      · -- unknown
        by_cases hver : t ∈ versionTokens
        · exact .inr (.inr ⟨parseLoop_version fs size allowed p rest hver, .inr (.version hver)⟩)
        · have hi : t ∉ infoTokens := fun h => ht (known_tokens.2.2 t h)
          rw [parseLoop_other fs size allowed p rest hi hver, parseArg_unknown fs p hp.toCfg ht rest hp.noFile]
          refine .inr (.inl ⟨_, rfl, ⟨.unknown ht hver, ?_⟩, stops_unknown ht hver⟩)
          rintro ⟨as, hr, -⟩
          exact reads_unknown ht hr

theorem After.postCheck {fs : FS} {as : List Asg} {p : Parser D} (h : After fs as p) : postParseCheck p = .ok () := by
  have key : ∀ (m : Map (ArgObj Str D)), (∀ x ∈ m, x.2.post = .ok ()) → m.foldlM (fun _ a => a.2.post) () = Res.ok () := by
    intro m
    induction m with
    | nil => intro _; rfl
    | cons x m ih =>
      intro hm
      rw [List.foldlM_cons, hm x (by simp)]
      exact ih (fun y hy => hm y (by simp [hy]))
  unfold postParseCheck
  rw [h.strArg, h.switchArg, h.intArg, h.doubleArg, key p.fileArg h.post]
  rfl

/-- What `parse` does with every command line. -/
theorem parse_exactly [Dbl D] (fs : FS) (args : List Str) (hfit : ∀ v ∈ args, Fits v) :
    (∃ as q, Reads args as ∧ (∀ a ∈ as, a.Ok) ∧ as ≠ [] ∧ parse fs (calcJ (D := D)) args = .ok q ∧ After fs as q) ∨
    (∃ e, parse fs (calcJ (D := D)) args = .throw e ∧ (args = [] ∧ e = .runtimeError ∨ Refused args e) ∧
      (args = [] ∨ ¬ ∃ as, Reads args as ∧ ∀ a ∈ as, a.Ok) ∧ ¬ Stops args) ∨
    (parse fs (calcJ (D := D)) args = .exit 0 ∧ (OnlyInfo args ∨ Stops args)) := by
  unfold parse
  by_cases h0 : args = []
  · rw [if_pos h0]
    refine .inr (.inl ⟨_, rfl, .inl ⟨h0, rfl⟩, .inl h0, ?_⟩)
    subst h0; intro h; cases h
  · rw [if_neg h0]
    rcases parseLoop_outcome fs (args.length + 1) _ args (Nat.le_refl _) hfit [] (calcJ (D := D)) 2 (After.init fs) (by omega) with
      ⟨as, q, h1, h2, h3, h4, h5⟩ | ⟨e, h1, ⟨h0', h2⟩, h3⟩ | ⟨h1, h2⟩
    · refine .inl ⟨as, q, h1, h2, ?_, by rw [h3]; simp only [Res.ok_bind, h4.postCheck], by simpa using h4⟩
      rintro rfl
      apply h5
      refine ⟨by omega, h0, ?_⟩
      have : ∀ {ts as}, Reads ts as → as = [] → ∀ t ∈ ts, t ∈ infoTokens := by
        intro ts as h
        induction h with
        | nil => intro _ t ht; cases ht
        | info h _ ih =>
          intro e t ht
          rcases List.mem_cons.1 ht with rfl | ht
          · exact h
          · exact ih e t ht
        | value => intro e; cases e
        | switch => intro e; cases e
      exact this h1 rfl
    · refine .inr (.inl ⟨e, by rw [h1]; rfl, .inr h0', .inr h2, h3⟩)
    · refine .inr (.inr ⟨by rw [h1]; rfl, ?_⟩)
      rcases h2 with ⟨-, h⟩ | h
      · exact .inl h
      · exact .inr h

theorem parse_outcome [Dbl D] (fs : FS) (args : List Str) (hfit : ∀ v ∈ args, Fits v) :
    (∃ as q, Reads args as ∧ (∀ a ∈ as, a.Ok) ∧ as ≠ [] ∧ parse fs (calcJ (D := D)) args = .ok q ∧ After fs as q) ∨
    (∃ e, parse fs (calcJ (D := D)) args = .throw e ∧ (args = [] ∨ ¬ ∃ as, Reads args as ∧ ∀ a ∈ as, a.Ok) ∧ ¬ Stops args) ∨
    (parse fs (calcJ (D := D)) args = .exit 0 ∧ (OnlyInfo args ∨ Stops args)) := by
  rcases parse_exactly (D := D) fs args hfit with h | ⟨e, h1, -, h2⟩ | h
  · exact .inl h
  · exact .inr (.inl ⟨e, h1, h2⟩)
  · exact .inr (.inr h)

theorem BadValue.unique {k : Kind} {v : Str} {e e' : Exn} (h : BadValue k v e) (h' : BadValue k v e') : e = e' := by
  cases h with
  | large hn hr =>
    cases h' with
    | large => rfl
    | wrong _ hw => exact absurd ⟨_, hn⟩ (hw rfl)
  | wrong hx hw =>
    cases h' with
    | large hn => exact absurd ⟨_, hn⟩ (hw rfl)
    | wrong => rfl

theorem BadValue.not_ok {k : Kind} {v : Str} {e : Exn} (h : BadValue k v e) : ¬ ValueOk k v := by
  cases h with
  | large hn hr =>
    rintro ⟨m, hm, hmr⟩
    obtain ⟨c1, c2, -⟩ := C67_stoi v
    have := c1 m hm hmr
    rw [c2 _ hn hr] at this
    cases this
  | wrong h => exact h

theorem switch_not_value {t f : Str} (h : (t, f) ∈ switchTokens) : ¬ ∃ g s k, (g, s, k) ∈ valueFlags ∧ (t = g ∨ t = s) := by
  have key : ∀ x ∈ switchTokens, ∀ y ∈ valueFlags, x.1 ≠ y.1 ∧ x.1 ≠ y.2.1 := by decide
  rintro ⟨g, s, k, hg, rfl | rfl⟩
  · exact (key _ h _ hg).1 rfl
  · exact (key _ h _ hg).2 rfl

/-- The parser throws the exception at a command line it refuses. -/
theorem refused_loop [Dbl D] (fs : FS) (size : Nat) {args : List Str} {e : Exn} (h : Refused args e) : (∀ v ∈ args, Fits v) →
    ∀ (hist : List Asg) (p : Parser D) (allowed : Nat), After fs hist p → allowed + args.length ≤ size + 1 →
    parseLoop fs size 0 allowed p args = .throw e := by
  induction h with
  | @info t ts e ht h ih =>
    intro hfit hist p allowed hp hsz
    rw [parseLoop_info fs size allowed p ts ht]
    have : ts ≠ [] := by rintro rfl; cases h
    have := List.length_pos_iff.2 this
    simp only [List.length_cons] at hsz
    rw [if_neg (by omega)]
    exact ih (fun v hv => hfit v (by simp [hv])) hist p (allowed + 1) hp (by omega)
  | @value f s k t v ts e hf ht hv h ih =>
    intro hfit hist p allowed hp hsz
    simp only [List.length_cons] at hsz
    obtain ⟨n1, n2, -⟩ := value_token hf ht
    rw [parseLoop_other fs size allowed p _ n1 n2, parseArg_value fs p hp.toCfg hf ht _ hp.noFile hp.isFile]
    rcases hp.value hf (hfit v (by simp)) with ⟨-, q, hq, hq'⟩ | ⟨hv', -⟩
    · simp only [hq, Res.ok_bind]
      rw [parseLoop]
      exact ih (fun v hv => hfit v (by simp [hv])) _ q allowed hq' (by omega)
    · exact absurd hv hv'
  | @switch t f ts e hf hn h ih =>
    intro hfit hist p allowed hp hsz
    simp only [List.length_cons] at hsz
    obtain ⟨n1, n2⟩ := switch_tokens _ hf
    rw [parseLoop_other fs size allowed p ts n1 n2, parseArg_switch fs p hp.toCfg hf ts hp.noFile hn]
    simp only [Res.ok_bind]
    exact ih (fun v hv => hfit v (by simp [hv])) _ _ allowed (hp.switch hf) (by omega)
  | @missing f s k t hf ht =>
    intro hfit hist p allowed hp hsz
    obtain ⟨n1, n2, -⟩ := value_token hf ht
    rw [parseLoop_other fs size allowed p _ n1 n2, parseArg_value fs p hp.toCfg hf ht _ hp.noFile hp.isFile]
    rfl
  | @bad f s k t v ts e hf ht hb =>
    intro hfit hist p allowed hp hsz
    obtain ⟨n1, n2, -⟩ := value_token hf ht
    rw [parseLoop_other fs size allowed p _ n1 n2, parseArg_value fs p hp.toCfg hf ht _ hp.noFile hp.isFile]
    rcases hp.value hf (hfit v (by simp)) with ⟨hv, -⟩ | ⟨-, e', hq, hb'⟩
    · exact absurd hv hb.not_ok
    · simp only [hq, Res.throw_bind]
      rw [hb'.unique hb]
  | @stray t f u ts hf hu =>
    intro hfit hist p allowed hp hsz
    have hn : ¬ ∀ w ws, u :: ts = w :: ws → w ∈ flagTokens := fun h => hu (h u ts rfl)
    have h1 : Refused (t :: u :: ts) .invalidArgument := .stray hf hu
    rcases parseLoop_outcome fs size _ (t :: u :: ts) (Nat.le_refl _) hfit hist p allowed hp hsz with ⟨as, q, g1, -⟩ | ⟨e, g1, ⟨g2, -⟩, -⟩ | ⟨-, g⟩
    · exact absurd ((reads_switch hf).1 g1).1 hn
    · rw [g1]
      have : e = .invalidArgument := by
        obtain ⟨n1, n2⟩ := switch_tokens _ hf
        cases g2 with
        | info h => exact absurd h n1
        | value h ht => exact absurd ⟨_, _, _, h, ht⟩ (switch_not_value hf)
        | switch _ h => exact absurd h hn
        | bad h ht => exact absurd ⟨_, _, _, h, ht⟩ (switch_not_value hf)
        | stray => rfl
        | unknown => rfl
      rw [this]
    · rcases g with ⟨-, -, g⟩ | g
      · exact absurd (g t (by simp)) (switch_tokens _ hf).1
      · exact absurd ((stops_switch hf).1 g).1 hn
  | @unknown t ts ht hver =>
    intro hfit hist p allowed hp hsz
    have hi : t ∉ infoTokens := fun h => ht (known_tokens.2.2 t h)
    rw [parseLoop_other fs size allowed p ts hi hver, parseArg_unknown fs p hp.toCfg ht ts hp.noFile]
    rfl

end
end Verif.Args
