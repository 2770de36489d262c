import Verif.Spec.Refuses
import Verif.Props.Accepts
/-
Property C131: the exception an arbitrary parser throws at a command line it does not accept.
-/
namespace Verif.Args
open Strings

section
variable {D : Type} [Dbl D]

/-- A value, or `invalid_argument`. -/
def Fair {α : Type} (x : Res α) : Prop := (∃ a, x = .ok a) ∨ x = .throw .invalidArgument

omit [Dbl D] in
theorem Fair.bind {α β : Type} {x : Res α} {f : α → Res β} (h : Fair x) (hf : ∀ a, x = .ok a → Fair (f a)) : Fair (x >>= f) := by
  rcases h with ⟨a, rfl⟩ | rfl
  · exact hf a rfl
  · exact .inr rfl

omit [Dbl D] in
theorem Fair.ok {α : Type} (a : α) : Fair (Res.ok a) := .inl ⟨a, rfl⟩
omit [Dbl D] in
theorem Fair.throw {α : Type} : Fair (Res.throw .invalidArgument : Res α) := .inr rfl

theorem fair_int {a : ArgObj Int D} (h : Reached newArgumentInt a) (fs : FS) (n : Int) : Fair (a.valid fs n) := by
  obtain ⟨o, lo, hi, rfl, e1, e2⟩ := intForm h
  have hv : Fair (intVT.valid fs n o) := by
    show Fair (intValid fs n o)
    unfold intValid
    rw [getOpt_some e1, getOpt_some e2]
    simp only [Res.ok_bind]
    split
    · exact .throw
    · split
      · exact .throw
      · exact .ok _
  unfold ArgObj.valid
  dsimp only
  rw [validAll_one]
  exact (hv.bind fun _ _ => .ok _).bind fun _ _ => .ok _

theorem fair_double {a : ArgObj D D} (h : Reached newArgumentDouble a) (fs : FS) (n : D) : Fair (a.valid fs n) := by
  obtain ⟨o, lo, hi, rfl, e1, e2⟩ := doubleForm h
  have hv : Fair (doubleVT.valid fs n o) := by
    show Fair (doubleValid fs n o)
    unfold doubleValid
    rw [getOpt_some e1, getOpt_some e2]
    simp only [Res.ok_bind]
    split
    · exact .throw
    · split
      · exact .throw
      · exact .ok _
  unfold ArgObj.valid
  dsimp only
  rw [validAll_one]
  exact (hv.bind fun _ _ => .ok _).bind fun _ _ => .ok _

theorem fair_str {a : ArgObj Str D} (h : Reached newArgumentString a) (fs : FS) (v : Str)
    (hen : ¬ ArgOpt a.sets (lit "PROPERTY_STRING_CHOICE") (lit "STRING_CHOICE_ENFORCED") []) : Fair (a.valid fs v) := by
  obtain ⟨o, o2, lo, hi, en, cs, rfl, e1, e2, e3, e4⟩ := strForm h
  have hv : Fair (stringVT.valid fs v o) := by
    show Fair (stringValid fs v o)
    unfold stringValid
    rw [getOpt_some e1, getOpt_some e2]
    simp only [Res.ok_bind]
    split
    · exact .throw
    · split
      · exact .throw
      · exact .ok _
  have hc : Fair (choiceVT.valid fs v o2) := by
    show Fair (choiceValid fs v o2)
    unfold choiceValid
    rw [getOpt_some e3, getOpt_some e4]
    simp only [Res.ok_bind]
    cases en with
    | nil => exact absurd ((argOpt_one (vt := choiceVT) rfl).2 e3) hen
    | cons e es =>
      simp only [begin, Res.ok_bind]
      split
      · split
        · exact .ok _
        · exact .throw
      · exact .ok _
  unfold ArgObj.valid
  dsimp only
  rw [validAll_one, validAll_one]
  exact (hv.bind fun _ _ => .ok _).bind fun _ _ => (hc.bind fun _ _ => .ok _).bind fun _ _ => .ok _

theorem fair_switch {a : ArgObj Str D} (h : Reached newArgumentSwitch a) (fs : FS) (v : Str) : Fair (a.valid fs v) := by
  obtain ⟨o, x, rfl, -⟩ := switchForm h
  have hv : Fair (switchVT.valid fs v o) := by
    show Fair (switchValid fs v o)
    unfold switchValid
    split
    · exact .throw
    · exact .ok _
  unfold ArgObj.valid
  dsimp only
  rw [validAll_one]
  exact (hv.bind fun _ _ => .ok _).bind fun _ _ => .ok _

theorem fair_file {a : ArgObj Str D} (h : Reached newArgumentFile a) (fs : FS) (v : Str) (hf : Fits v) : Fair (a.valid fs v) := by
  obtain ⟨o, o2, o3, m, d, exts, sis, rfl, e1, e2, e3, e4⟩ := fileForm h
  obtain ⟨dir, core, ext, hp⟩ := PathParts.exists v
  have hv : Fair (fileExistVT.valid fs v o) := by
    show Fair (fileExistValid fs v o)
    unfold fileExistValid
    rw [getOpt_some e1]
    simp only [Res.ok_bind]
    split
    · split
      · exact .throw
      · exact .ok _
    · split
      · exact .ok _
      · exact .ok _
  have hs : Fair (sisterVT.valid fs v o3) := by
    obtain ⟨h1, h2, h3, -, -⟩ := hp.file hf
    show Fair (sisterValid fs v o3)
    unfold sisterValid
    rw [h2, h1]; simp only [Res.ok_bind]
    rw [h3]; simp only [Res.ok_bind]
    rw [getOpt_some e4]; simp only [Res.ok_bind]
    exact .ok _
  have hx : Fair (fileExtVT.valid fs v o2) := by
    obtain ⟨x1, x2⟩ := C54_ext fs o2 exts (getOpt_some e3) hp hf
    by_cases c2 : ext ∈ exts ∨ ∃ t, '*' :: t ∈ exts
    · rw [x1 c2]; exact .ok _
    · rw [x2 c2]; exact .throw
  unfold ArgObj.valid
  dsimp only
  rw [validAll_one, validAll_one, validAll_one]
  exact (hv.bind fun _ _ => .ok _).bind fun _ _ => (hx.bind fun _ _ => .ok _).bind fun _ _ => (hs.bind fun _ _ => .ok _).bind fun _ _ => .ok _

omit [Dbl D] in
theorem Fair.fails {α β : Type} {x : Res α} (h : Fair x) (hn : ¬ ∃ a, x = .ok a) (f : α → Res β) : (x >>= f) = .throw .invalidArgument := by
  rcases h with h | rfl
  · exact absurd h hn
  · rfl

/-- A value that is not acceptable. -/
theorem bad_value (fs : FS) {p : Parser D} (o : Orderly p) (ok : ArgsOk p) (en : Enforcing p) {t f v : Str} {e : Exn}
    (hs : StandsFor p t f) (hb : Unacceptable fs p f v e) (ts : List Str) (hf : Fits v) : parseArg fs p t (v :: ts) = .throw e := by
  obtain rfl := resolve_stands o hs
  cases hb with
  | large ha hn hr =>
    obtain ⟨a, ha⟩ := Option.ne_none_iff_exists'.1 ha
    rw [oneArg_int _ o ha]
    dsimp only
    rw [(C67_stoi v).2.1 _ hn hr]; rfl
  | unread ha hx =>
    obtain ⟨a, ha⟩ := Option.ne_none_iff_exists'.1 ha
    rw [oneArg_double _ o ha]
    dsimp only
    rw [hx]; rfl
  | @wrong k ha hk hn hint hdbl =>
    cases k with
    | switch => exact absurd rfl hk
    | str =>
      obtain ⟨a, ha⟩ := Option.ne_none_iff_exists'.1 ha
      rw [oneArg_str _ o ha]
      refine (fair_str (ok.strs _ _ ha) fs v (en _ _ ha)).fails ?_ _
      rintro ⟨a', h⟩
      obtain ⟨-, lo, hi, e, es, cs, h1, h2, h3, h4, h5, h6⟩ := (str_valid (ok.strs _ _ ha) fs v a').1 h
      exact hn (.str ha h1 h2 h3 h4 h5 h6)
    | int =>
      obtain ⟨a, ha⟩ := Option.ne_none_iff_exists'.1 ha
      rw [oneArg_int _ o ha]
      dsimp only
      by_cases hx : ∃ n, IntText v n
      · obtain ⟨n, hx⟩ := hx
        rw [(C67_stoi v).1 _ hx (hint rfl n hx), Res.ok_bind]
        refine (fair_int (ok.ints _ _ ha) fs n).fails ?_ _
        rintro ⟨a', h⟩
        obtain ⟨-, lo, hi, h1, h2, h3, h4⟩ := (int_valid (ok.ints _ _ ha) fs n a').1 h
        exact hn (.int ha h1 h2 hx (hint rfl n hx) ⟨h3, h4⟩)
      · rw [(C67_stoi v).2.2 hx]; rfl
    | double =>
      obtain ⟨a, ha⟩ := Option.ne_none_iff_exists'.1 ha
      rw [oneArg_double _ o ha]
      dsimp only
      obtain ⟨x, hx⟩ := hdbl rfl
      rw [hx, Res.ok_bind]
      refine (fair_double (ok.doubles _ _ ha) fs x).fails ?_ _
      rintro ⟨a', h⟩
      obtain ⟨-, lo, hi, h1, h2, h3, h4⟩ := (double_valid (ok.doubles _ _ ha) fs x a').1 h
      exact hn (.double ha h1 h2 hx h3 h4)
    | file =>
      obtain ⟨a, ha⟩ := Option.ne_none_iff_exists'.1 ha
      rw [oneArg_file _ o ha]
      refine (fair_file (ok.files _ _ ha) fs v hf).fails ?_ _
      rintro ⟨a', h⟩
      rcases file_valid (ok.files _ _ ha) fs v hf with ⟨⟨m, exts, dir, core, ext, h1, h2, h3, h4, h5⟩, -⟩ | ⟨-, er, hv⟩
      · exact hn (.file ha h1 h2 h3 h4 h5)
      · rw [hv] at h; cases h

/-- A flag without its value. -/
theorem no_value (fs : FS) {p : Parser D} (o : Orderly p) {t f : Str} {k : ArgKind} (hs : StandsFor p t f) (ha : HasArg p f k)
    (hk : k ≠ .switch) : parseArg fs p t [] = .throw .runtimeError := by
  obtain rfl := resolve_stands o hs
  cases k with
  | switch => exact absurd rfl hk
  | str => obtain ⟨a, ha⟩ := Option.ne_none_iff_exists'.1 ha; rw [oneArg_str _ o ha]
  | int => obtain ⟨a, ha⟩ := Option.ne_none_iff_exists'.1 ha; rw [oneArg_int _ o ha]
  | double => obtain ⟨a, ha⟩ := Option.ne_none_iff_exists'.1 ha; rw [oneArg_double _ o ha]
  | file => obtain ⟨a, ha⟩ := Option.ne_none_iff_exists'.1 ha; rw [oneArg_file _ o ha]

/-- Something that is not a flag with an argument. -/
theorem not_flag (fs : FS) {p : Parser D} (o : Orderly p) {t : Str} (hn : ∀ f k, StandsFor p t f → ¬ HasArg p f k) (ts : List Str) :
    parseArg fs p t ts = .throw .invalidArgument :=
  oneArg_none ts fun k hk => hn _ k (stands_resolve o hk) hk

/-- A switch followed by something that is not a flag. -/
theorem stray_value (fs : FS) {p : Parser D} (o : Orderly p) (ok : ArgsOk p) {t f u : Str} (hs : StandsFor p t f) (ha : HasArg p f .switch)
    (hu : ∀ g, ¬ StandsFor p u g) (ts : List Str) :
    parseArg fs p t (u :: ts) = .throw .invalidArgument ∨
      ∃ q, parseArg fs p t (u :: ts) = .ok (q, 0) ∧ u ∉ infoTokens ∧ u ∉ versionTokens ∧ ∀ k, ¬ HasArg q (resolve q u) k := by
  obtain rfl := resolve_stands o hs
  obtain ⟨a, ha⟩ := Option.ne_none_iff_exists'.1 ha
  have e := oneArg_switch (fs := fs) (u :: ts) o ha
  have hn : ¬ nextIsFlag p (u :: ts) = true := fun h => by
    obtain ⟨g, hg⟩ := ((next_iff o (u :: ts)).1 h).2 u rfl
    exact hu g hg
  rw [if_neg hn] at e
  dsimp only at e
  by_cases h : ∃ a', a.valid fs u = .ok a'
  · obtain ⟨a', h1⟩ := h
    rw [h1, Res.ok_bind] at e
    have hp : (∃ on, positive u = .ok on) ∨ positive u = .throw .invalidArgument := by
      unfold positive
      split
      · exact .inl ⟨_, rfl⟩
      · split
        · exact .inl ⟨_, rfl⟩
        · exact .inr rfl
    rcases hp with ⟨on, h2⟩ | h2
    · right
      rw [h2, Res.ok_bind] at e
      obtain ⟨w1, w2⟩ := switch_words h2
      refine ⟨_, e, w1, w2, fun k hk' => ?_⟩
      obtain rfl := switch_valid (ok.switches _ _ ha) fs u h1
      have hk'' : HasArg p (resolve p u) k := by
        cases k with
        | switch => show p.switchArg.get (resolve p u) ≠ none; rw [← get_set_same ha]; exact hk'
        | _ => exact hk'
      exact hu _ (stands_resolve o hk'')
    · left; rw [e, h2]; rfl
  · left
    rw [e]
    exact (fair_switch (ok.switches _ _ ha) fs u).fails h _

theorem RulesAfter.unacceptable {fs fs' : FS} {p q : Parser D} {as : List (Str × Option Str)} (h : RulesAfter fs p as q) {f v : Str} {e : Exn}
    (k : Unacceptable fs' p f v e) : Unacceptable fs' q f v e := by
  cases k with
  | large ha hn hr => exact .large ((h.same.kind _ _).2 ha) hn hr
  | unread ha hx => exact .unread ((h.same.kind _ _).2 ha) hx
  | wrong ha hk hn h1 h2 => exact .wrong ((h.same.kind _ _).2 ha) hk (fun h' => hn ((h.acceptable _ _).1 h')) h1 h2

theorem RulesAfter.refuses {fs fs' : FS} {p q : Parser D} {as : List (Str × Option Str)} (h : RulesAfter fs p as q) {args : List Str} {e : Exn}
    (k : Refuses fs' p args e) : Refuses fs' q args e := by
  have st : ∀ t f, StandsFor q t f ↔ StandsFor p t f := by intro t f; unfold StandsFor; rw [h.flags]
  induction k with
  | info hi _ ih => exact .info hi ih
  | value hi hv hs ha _ ih => exact .value hi hv ((st _ _).2 hs) ((h.acceptable _ _).2 ha) ih
  | switch hi hv hs ha hn _ ih =>
    exact .switch hi hv ((st _ _).2 hs) ((h.same.kind _ _).2 ha) (fun u hu => (hn u hu).imp (fun g hg => (st _ _).2 hg)) ih
  | missing hi hv hs ha hk => exact .missing hi hv ((st _ _).2 hs) ((h.same.kind _ _).2 ha) hk
  | bad hi hv hs hb => exact .bad hi hv ((st _ _).2 hs) (h.unacceptable hb)
  | stray hi hv hs ha hu => exact .stray hi hv ((st _ _).2 hs) ((h.same.kind _ _).2 ha) fun g hg => hu g ((st _ _).1 hg)
  | unknown hi hv hn => exact .unknown hi hv fun f k hs ha => hn f k ((st _ _).1 hs) ((h.same.kind _ _).1 ha)

omit [Dbl D] in
theorem Refuses.nonempty [Dbl D] {fs : FS} {p : Parser D} {args : List Str} {e : Exn} (h : Refuses fs p args e) : 1 ≤ args.length := by
  cases h <;> simp

theorem loop_info (fs : FS) (size allowed : Nat) (p : Parser D) {t : Str} (hi : t ∈ infoTokens) (ts : List Str) :
    parseLoop fs size 0 allowed p (t :: ts) = if allowed = size then .exit 0 else parseLoop fs size 0 (allowed + 1) p ts := by
  simp only [infoTokens, List.mem_cons, List.not_mem_nil, or_false] at hi
  conv => lhs; unfold parseLoop
  rcases hi with rfl | rfl | rfl | rfl
  · rw [if_pos (.inl rfl)]
  · rw [if_pos (.inr rfl)]
  · rw [if_neg (by decide), if_neg (by decide), if_pos (.inl rfl)]
  · rw [if_neg (by decide), if_neg (by decide), if_pos (.inr rfl)]

theorem loop_flag (fs : FS) (size allowed : Nat) (p : Parser D) {t : Str} (hi : t ∉ infoTokens) (hv : t ∉ versionTokens) (ts : List Str) :
    parseLoop fs size 0 allowed p (t :: ts) = (parseArg fs p t ts >>= fun r => parseLoop fs size r.2 allowed r.1 ts) := by
  simp only [infoTokens, versionTokens, List.mem_cons, List.not_mem_nil, or_false, not_or] at hi hv
  conv => lhs; unfold parseLoop
  rw [if_neg (by rintro (e | e); exacts [hi.1 e, hi.2.1 e]), if_neg (by rintro (e | e); exacts [hv.1 e, hv.2 e]),
    if_neg (by rintro (e | e); exacts [hi.2.2.1 e, hi.2.2.2 e])]

/-- The loop throws the exception of a refused command line. -/
theorem loop_refuses {fs : FS} {size : Nat} {args : List Str} {e : Exn} : ∀ {p : Parser D} {allowed : Nat}, Refuses fs p args e →
    (∀ v ∈ args, Fits v) → Orderly p → ArgsOk p → Enforcing p → allowed + args.length ≤ size + 1 →
    parseLoop fs size 0 allowed p args = .throw e := by
  induction hn : args.length using Nat.strongRecOn generalizing args with
  | _ n ih =>
    subst hn
    intro p allowed h hfit o ok en hlen
    cases h with
    | @info t ts _ hi h =>
      rw [loop_info fs size allowed p hi]
      have := h.nonempty
      simp only [List.length_cons] at hlen
      rw [if_neg (by omega)]
      exact ih ts.length (by simp) rfl h (fun v hv => hfit v (by simp [hv])) o ok en (by omega)
    | @value t f v ts _ hi hv hs hacc h =>
      rw [loop_flag fs size allowed p hi hv]
      rcases step_outcome fs o ok t (v :: ts) (fun v hv => hfit v (List.mem_cons_of_mem _ hv)) with ⟨f', v', us, q1, e1, hs', -, e, ra⟩ | ⟨f', q1, hs', hsw, -⟩ | ⟨hno, -⟩
      · cases e1
        rw [e, Res.ok_bind]
        dsimp only
        have sk : parseLoop fs size 1 allowed q1 (v :: ts) = parseLoop fs size 0 allowed q1 ts := by
          conv => lhs; unfold parseLoop
        rw [sk]
        simp only [List.length_cons] at hlen
        exact ih ts.length (by simp only [List.length_cons]; omega) rfl (ra.refuses h) (fun v hv => hfit v (by simp [hv])) (ra.same.orderly o) (argsOk_parseArg ok e)
          (fun f a ha => en f a (by rw [← ra.strs]; exact ha)) (by omega)
      · obtain ⟨k, k1, k2⟩ := hacc.kind
        rw [hs'.unique o hs] at hsw
        exact absurd (o.one _ _ _ k1 hsw) k2
      · exact absurd ⟨f, hs, .inl ⟨v, rfl, hacc⟩⟩ hno
    | @switch t f ts _ hi hv hs ha hnx h =>
      rw [loop_flag fs size allowed p hi hv]
      rcases step_outcome fs o ok t ts (fun v hv => hfit v (List.mem_cons_of_mem _ hv)) with ⟨f', v', us, q1, e1, hs', hacc, -⟩ | ⟨f', q1, hs', hsw, -, e, ra⟩ | ⟨hno, -⟩
      · obtain ⟨k, k1, k2⟩ := hacc.kind
        rw [hs'.unique o hs] at k1
        exact absurd (o.one _ _ _ k1 ha) k2
      · rw [e, Res.ok_bind]
        dsimp only
        simp only [List.length_cons] at hlen
        exact ih ts.length (by simp) rfl (ra.refuses h) (fun v hv => hfit v (by simp [hv])) (ra.same.orderly o) (argsOk_parseArg ok e)
          (fun f a ha => en f a (by rw [← ra.strs]; exact ha)) (by omega)
      · exact absurd ⟨f, hs, .inr ⟨ha, hnx⟩⟩ hno
    | missing hi hv hs ha hk => rw [loop_flag fs size allowed p hi hv, no_value fs o hs ha hk]; rfl
    | bad hi hv hs hb => rw [loop_flag fs size allowed p hi hv, bad_value fs o ok en hs hb _ (hfit _ (by simp))]; rfl
    | @stray t f u ts hi hv hs ha hu =>
      rw [loop_flag fs size allowed p hi hv]
      rcases stray_value fs o ok hs ha hu ts with e | ⟨q, e, w1, w2, hk⟩
      · rw [e]; rfl
      · rw [e, Res.ok_bind]
        dsimp only
        rw [loop_flag fs size allowed q w1 w2, oneArg_none ts hk]; rfl
    | unknown hi hv hn => rw [loop_flag fs size allowed p hi hv, not_flag fs o hn]; rfl

/-- Every command line is as expected, asks for the version, or is refused. -/
theorem sorts (fs : FS) (p : Parser D) (hd : StodOk D) (args : List Str) :
    (∃ as, Fine fs p args as) ∨ AsksVersion fs p args ∨ ∃ e, Refuses fs p args e := by
  induction hn : args.length using Nat.strongRecOn generalizing args with
  | _ n ih =>
    subst hn
    cases args with
    | nil => exact .inl ⟨_, .nil⟩
    | cons t ts =>
      by_cases hi : t ∈ infoTokens
      · rcases ih ts.length (by simp) ts rfl with ⟨as, h⟩ | h | ⟨e, h⟩
        · exact .inl ⟨_, .info hi h⟩
        · exact .inr (.inl (.info hi h))
        · exact .inr (.inr ⟨_, .info hi h⟩)
      by_cases hv : t ∈ versionTokens
      · exact .inr (.inl (.here hv))
      by_cases hk : ∃ f k, StandsFor p t f ∧ HasArg p f k
      swap
      · exact .inr (.inr ⟨_, .unknown hi hv fun f k hs ha => hk ⟨f, k, hs, ha⟩⟩)
      obtain ⟨f, k, hs, ha⟩ := hk
      by_cases hsw : k = .switch
      · subst hsw
        by_cases hx : ∀ u ∈ ts.head?, ∃ g, StandsFor p u g
        · rcases ih ts.length (by simp) ts rfl with ⟨as, h⟩ | h | ⟨e, h⟩
          · exact .inl ⟨_, .switch hi hv hs ha hx h⟩
          · exact .inr (.inl (.switch hi hs ha hx h))
          · exact .inr (.inr ⟨_, .switch hi hv hs ha hx h⟩)
        · cases ts with
          | nil => exact absurd (fun u hu => by cases hu) hx
          | cons u us => exact .inr (.inr ⟨_, .stray hi hv hs ha fun g hg => hx (fun w hw => by cases hw; exact ⟨g, hg⟩)⟩)
      · cases ts with
        | nil => exact .inr (.inr ⟨_, .missing hi hv hs ha hsw⟩)
        | cons v us =>
          by_cases hacc : Acceptable fs p f v
          · rcases ih us.length (by simp only [List.length_cons]; omega) us rfl with ⟨as, h⟩ | h | ⟨e, h⟩
            · exact .inl ⟨_, .value hi hv hs hacc h⟩
            · exact .inr (.inl (.value hi hs hacc h))
            · exact .inr (.inr ⟨_, .value hi hv hs hacc h⟩)
          · by_cases c1 : k = .int ∧ ∃ n, IntText v n ∧ ¬ (-2 ^ 31 ≤ n ∧ n < 2 ^ 31)
            · obtain ⟨rfl, n, h1, h2⟩ := c1
              exact .inr (.inr ⟨_, .bad hi hv hs (.large ha h1 h2)⟩)
            by_cases c2 : k = .double ∧ ∃ e, (Dbl.stod v : Res D) = .throw e
            · obtain ⟨rfl, e, h1⟩ := c2
              exact .inr (.inr ⟨_, .bad hi hv hs (.unread ha h1)⟩)
            refine .inr (.inr ⟨_, .bad hi hv hs (.wrong ha hsw hacc (fun hk n hn => ?_) fun hk => ?_)⟩)
            · by_contra hr; exact c1 ⟨hk, n, hn, hr⟩
            · rcases hd v with h | h
              · exact h
              · exact absurd ⟨hk, h⟩ c2

/-- **C131.** Whatever flags, arguments and options a parser was given, and whatever it has read before: it throws `e` at a command line exactly
when there is none (`runtime_error`), or the first thing wrong with it is met with `e`, or nothing is wrong with it but a file that must exist was
not named (`runtime_error`). -/
theorem C131_throws (fs : FS) {p : Parser D} (h : ParserReached p) (o : Orderly p) (en : Enforcing p) (hd : StodOk D) (args : List Str)
    (hfit : ∀ v ∈ args, Fits v) (e : Exn) :
    parse fs p args = .throw e ↔
      (args = [] ∧ e = .runtimeError) ∨ Refuses fs p args e ∨ (Lacks fs p args ∧ e = .runtimeError) := by
  have ok := h.argsOk
  by_cases h0 : args = []
  · subst h0
    unfold parse
    rw [if_pos rfl]
    constructor
    · intro h; cases h; exact .inl ⟨rfl, rfl⟩
    · rintro (⟨-, rfl⟩ | h | ⟨⟨as, h, hne, -⟩, -⟩)
      · rfl
      · cases h
      · cases h; exact absurd rfl hne
  have hpos : 1 ≤ args.length := by
    cases args with
    | nil => exact absurd rfl h0
    | cons a b => simp
  have R : ∀ e', Refuses fs p args e' → parse fs p args = .throw e' := by
    intro e' hr
    unfold parse
    rw [if_neg h0, loop_refuses (allowed := 2) hr hfit o ok en (by omega)]; rfl
  have L : Lacks fs p args → parse fs p args = .throw .runtimeError := by
    rintro ⟨as, a1, a2, f, hf, hno⟩
    unfold parse
    rw [if_neg h0]
    obtain ⟨l1, l2⟩ := loop_accepts (fs := fs) (size := args.length + 1) args.length args (Nat.le_refl _) hfit p 2 o ok (by omega) (by omega)
    obtain ⟨q, e⟩ := l2 as a1 (fun _ => a2)
    rw [e, Res.ok_bind]
    obtain ⟨as', b1, -, b3⟩ := l1 q e
    obtain rfl := b1.says.unique o a1.says
    rcases post_outcome (argsOk_parseLoop _ _ _ ok e) with ⟨-, c⟩ | ⟨c, -⟩
    · exact absurd ((needs_after o ok b3 b1 f).2 ⟨hf, hno⟩) (c f)
    · rw [c]; rfl
  constructor
  · intro ht
    rcases sorts fs p hd args with ⟨as, hf⟩ | hv | ⟨e', hr⟩
    · by_cases hne : as = []
      · subst hne
        have := (C106_outcomes fs h o en hd args hfit).2.2 (.inr ⟨h0, ?_⟩)
        · rw [this] at ht; cases ht
        · clear ht R L hfit h0 hpos
          generalize has : ([] : List (Str × Option Str)) = as at hf
          induction hf with
          | nil => intro t ht; cases ht
          | info hi _ ih =>
            intro t ht
            rcases List.mem_cons.1 ht with rfl | ht
            · exact hi
            · exact ih has t ht
          | value => cases has
          | switch => cases has
      · by_cases hl : ∀ f, NeedsFile p f → ∃ v, (f, some v) ∈ as
        · obtain ⟨q, hq⟩ := (C106_accepts fs h o args hfit).2 ⟨as, hf, hne, hl⟩
          rw [hq] at ht; cases ht
        · have hl : Lacks fs p args := by
            by_contra hc
            exact hl fun f hn => by
              by_contra hx
              exact hc ⟨as, hf, hne, f, hn, fun v hv => hx ⟨v, hv⟩⟩
          have := L hl
          rw [ht] at this; cases this
          exact .inr (.inr ⟨hl, rfl⟩)
    · rw [(C106_outcomes fs h o en hd args hfit).2.2 (.inl hv)] at ht; cases ht
    · have := R e' hr
      rw [ht] at this; cases this
      exact .inr (.inl hr)
  · rintro (⟨h, -⟩ | h | ⟨h, rfl⟩)
    · exact absurd h h0
    · exact R e h
    · exact L h

/-- C131: no command line is both acceptable and refused, and the exception is one only. -/
theorem C131_unique (fs : FS) {p : Parser D} (h : ParserReached p) (o : Orderly p) (en : Enforcing p) (hd : StodOk D) (args : List Str)
    (hfit : ∀ v ∈ args, Fits v) {e : Exn} (hr : Refuses fs p args e) :
    (∀ e', Refuses fs p args e' → e' = e) ∧ (∀ as, ¬ Fine fs p args as) ∧ ¬ AsksVersion fs p args := by
  have ht := (C131_throws fs h o en hd args hfit e).2 (.inr (.inl hr))
  refine ⟨fun e' hr' => ?_, fun as hf => ?_, fun hv => ?_⟩
  · have := (C131_throws fs h o en hd args hfit e').2 (.inr (.inl hr'))
    rw [ht] at this; cases this; rfl
  · have hl := loop_accepts (fs := fs) (size := args.length + 2) args.length args (Nat.le_refl _) hfit p 2 o h.argsOk (by omega) (by omega)
    obtain ⟨q, hq⟩ := hl.2 as hf (fun hh => by omega)
    rw [loop_refuses (allowed := 2) hr hfit o h.argsOk en (by omega)] at hq; cases hq
  · rw [(C106_outcomes fs h o en hd args hfit).2.2 (.inl hv)] at ht; cases ht

/-- C131: between them these are all the outcomes there are. -/
theorem C131_sorts (fs : FS) (p : Parser D) (hd : StodOk D) (args : List Str) :
    (∃ as, Fine fs p args as) ∨ AsksVersion fs p args ∨ ∃ e, Refuses fs p args e := sorts fs p hd args

end
end Verif.Args
