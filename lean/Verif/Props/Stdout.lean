import Verif.Spec.Stdout
import Verif.OutputLemmas
import Verif.Props.EveryLine
import Verif.Props.Output
/-
Property C128: everything calc_J writes to standard output.
-/
namespace Verif.Run
open Strings Readers QC Mat Log

/-! ### how far a calculation gets -/

section
variable {α β : Type} [Zero α] [One α] [Add α] [Sub α] [Mul α] [Div α] [DecidableEq β]

theorem outcome_split (tos : α → β) (cp : Bool) (kind1 : Str) (num1 : Int) (kind2 : Str) (num2 : Int)
    (S : Option (Nat × List (Nat × Nat × α))) (P m1 m2 : Found α) :
    outcome tos cp kind1 num1 kind2 num2 S P m1 m2 = ready tos cp S P m1 m2 >>= finish cp kind1 num1 kind2 num2 := by
  unfold outcome ready
  simp only [bind_assoc]
  refine bind_congr fun S => bind_congr fun CP => bind_congr fun EP => bind_congr fun E1 => bind_congr fun C1 => bind_congr fun E2 =>
    bind_congr fun C2 => bind_congr fun xP => bind_congr fun x1 => bind_congr fun x2 => ?_
  by_cases hc : width CP = S.1 ∧ (if cp then width C1 = S.1 ∧ width C2 = S.1 else width C1 + width C2 ≤ S.1)
  · rw [if_pos hc, if_pos hc]
    by_cases h0 : m1.counts ≠ [] ∧ m2.counts ≠ [] ∧ P.counts ≠ []
    · rw [if_pos h0, if_pos h0]
      simp only [bind_assoc]
      rfl
    · rw [if_neg h0, if_neg h0]
      rfl
  · rw [if_neg hc, if_neg hc]
    rfl

variable [Num α]

theorem complex_ready (tos : α → β) (par : Params.Params) {prP pr1 pr2 : PunData α} {lrP lr1 lr2 : LogData α} {punP pun1 pun2 : Pun.Known α}
    {logP log1 log2 : LogLines.Known α} (hpP : Readers.Matches prP punP) (hp1 : Readers.Matches pr1 pun1) (hp2 : Readers.Matches pr2 pun2)
    (hlP : LogLines.Holds lrP logP) (hl1 : LogLines.Holds lr1 log1) (hl2 : LogLines.Holds lr2 log2)
    {spinP spin1 spin2 : Log.Spin} (sP : par.spinP = spinP.name) (s1 : par.spin1 = spin1.name) (s2 : par.spin2 = spin2.name) :
    Res.Like (fun T x => reportOf par T = finish par.counterPoise par.orbType1 par.orbNum1 par.orbType2 par.orbNum2 x)
      (complexOf tos par prP pr1 pr2 lrP lr1 lr2)
      (ready tos par.counterPoise logP.overlap (found spinP punP (logP, lrP.getBasisFuncCount))
        (found spin1 pun1 (log1, lr1.getBasisFuncCount)) (found spin2 pun2 (log2, lr2.getBasisFuncCount))) := by
  unfold complexOf ready found
  rw [sP, s1, s2]
  obtain ⟨a, b⟩ | ⟨S, mS, a, b, hS1, hS⟩ := log_overlap hlP
  · rw [a, b]; trivial
  rw [a, b]; simp only [need, Res.ok_bind]; clear a b
  obtain ⟨a, b⟩ | ⟨CP, mP, a, b, tP⟩ := pun_get hpP spinP
  · rw [a, b]; trivial
  rw [a, b]; simp only [need, Res.ok_bind]; clear a b
  obtain ⟨a, b, -⟩ | ⟨EP, a, b, -⟩ := log_energies hlP spinP
  · rw [a, b]; trivial
  rw [a, b]; simp only [need, Res.ok_bind]; clear a b
  obtain ⟨oeP, eoe⟩ : ∃ m, ofVec EP.1 = .ok m := by
    obtain ⟨m, e, -⟩ := ofVec_rows EP.1
    exact ⟨m, e⟩
  rw [eoe]; simp only [Res.ok_bind]
  obtain ⟨a, -, b⟩ | ⟨E1, a, b, c⟩ := log_energies hl1 spin1
  · rw [a, b]; trivial
  rw [a, b, c]; simp only [need, Res.ok_bind]; clear a b c
  obtain ⟨a, b⟩ | ⟨C1, m1, a, b, t1⟩ := pun_get hp1 spin1
  · rw [a, b]; trivial
  rw [a, b]; simp only [need, Res.ok_bind]; clear a b
  obtain ⟨oe1, e1, r1⟩ := ofVec_rows E1.1
  rw [e1]; simp only [Res.ok_bind]
  obtain ⟨a, -, b⟩ | ⟨E2, a, b, c⟩ := log_energies hl2 spin2
  · rw [a, b]; trivial
  rw [a, b, c]; simp only [need, Res.ok_bind]; clear a b c
  obtain ⟨a, b⟩ | ⟨C2, m2, a, b, t2⟩ := pun_get hp2 spin2
  · rw [a, b]; trivial
  rw [a, b]; simp only [need, Res.ok_bind]; clear a b
  obtain ⟨oe2, e2, r2⟩ := ofVec_rows E2.1
  rw [e2]; simp only [Res.ok_bind]
  obtain ⟨a, b⟩ | ⟨xP, XP, a, b, cP⟩ := log_coords hlP
  · rw [a, b]; trivial
  rw [a, b]; simp only [need, Res.ok_bind]; clear a b
  obtain ⟨a, b⟩ | ⟨x1, X1, a, b, c1⟩ := log_coords hl1
  · rw [a, b]; trivial
  rw [a, b]; simp only [need, Res.ok_bind]; clear a b
  obtain ⟨a, b⟩ | ⟨x2, X2, a, b, c2⟩ := log_coords hl2
  · rw [a, b]; trivial
  rw [a, b]; simp only [need, Res.ok_bind]; clear a b
  obtain ⟨k1, k2⟩ := C34_ctor m1 m2 mP (oe1.rows, (E1.2 : Int)) (oe2.rows, (E2.2 : Int)) mS oeP par.counterPoise
  rw [hS.cols, tP.cols, t1.cols, t2.cols] at k1 k2
  have hfit : ((S.1 : Int) = width CP ∧ (if par.counterPoise = true then (width C1 : Int) = width CP ∧ (width C2 : Int) = width CP
      else (width C1 : Int) + width C2 ≤ width CP)) ↔
      (width CP = S.1 ∧ (if par.counterPoise = true then width C1 = S.1 ∧ width C2 = S.1 else width C1 + width C2 ≤ S.1)) := by
    split <;> omega
  by_cases hc : width CP = S.1 ∧ (if par.counterPoise = true then width C1 = S.1 ∧ width C2 = S.1 else width C1 + width C2 ≤ S.1)
  swap
  · rw [if_neg hc, k2 (fun h => hc (hfit.1 h))]; rfl
  rw [if_pos hc, k1 (hfit.2 hc)]
  simp only [Res.ok_bind]
  have vP := tP.values (by omega)
  rw [hc.1] at vP
  have ht1 : (Map.set (Map.set [] (lit "mon1") par.orbType1) (lit "mon2") par.orbType2 : Map Str).get "mon1".toList = some par.orbType1 := rfl
  have ht2 : (Map.set (Map.set [] (lit "mon1") par.orbType1) (lit "mon2") par.orbType2 : Map Str).get "mon2".toList = some par.orbType2 := rfl
  have hn1 : (Map.set (Map.set [] (lit "mon1") par.orbNum1) (lit "mon2") par.orbNum2 : Map Int).get "mon1".toList = some par.orbNum1 := rfl
  have hn2 : (Map.set (Map.set [] (lit "mon1") par.orbNum1) (lit "mon2") par.orbNum2 : Map Int).get "mon2".toList = some par.orbNum2 := rfl
  rw [r1, r2]
  have fin : ∀ T' x, Sorted (⟨m1, m2, mP, ((E1.1.length : Int), (E1.2 : Int)), ((E2.1.length : Int), (E2.2 : Int)), mS, oeP, false, par.counterPoise⟩ : TransferComplex α) T' C2 CP.length S.1 x →
      reportOf par T' = finish par.counterPoise par.orbType1 par.orbNum1 par.orbType2 par.orbNum2
        ⟨C1, C2, CP, E1, E2, EP, S.1, x.1, x.2.1, x.2.2⟩ := by
    intro T' x hx
    unfold reportOf finish
    dsimp only
    rw [calcJReport_chosen hx t1 rfl rfl eoe _ _ ht1 ht2 hn1 hn2]
    simp only [Int.natCast_inj]
  have hb : (lr1.getBasisFuncCount.length ≠ 0 ∧ lr2.getBasisFuncCount.length ≠ 0 ∧ lrP.getBasisFuncCount.length ≠ 0) ↔
      (lr1.getBasisFuncCount ≠ [] ∧ lr2.getBasisFuncCount ≠ [] ∧ lrP.getBasisFuncCount ≠ []) := by
    simp only [ne_eq, List.length_eq_zero_iff]
  by_cases h0 : lr1.getBasisFuncCount ≠ [] ∧ lr2.getBasisFuncCount ≠ [] ∧ lrP.getBasisFuncCount ≠ []
  · simp only [if_pos h0, if_pos (hb.2 h0)]
    rw [← Res.bind_ok (TransferComplex.unscramble _ _ _ _ _ _ _)]
    refine Res.Like.bind (unscramble_inOrder tos _ c1 c2 cP _ _ t2.cols t2.values (fun h => ?_) vP hS) fun T' x hx => ?_
    · have := hc.2
      rw [if_pos h] at this
      omega
    · obtain ⟨y1, y2, y3⟩ := x
      exact fin _ _ hx
  · simp only [if_neg h0, if_neg (fun h => h0 (hb.1 h)), Res.ok_bind]
    exact fin _ (_, _, _) ⟨rfl, rfl, rfl, rfl, rfl, t2.cols, t2.values, vP, hS⟩

end


/-! ### the texts -/

theorem orbitalName_eq (typ : Str) (n : Int) : orbitalLabel typ n = orbitalName typ n := by
  unfold orbitalLabel orbitalName intToStr
  by_cases h0 : n = 0
  · simp [h0]
  · rw [if_neg h0, if_neg h0]
    by_cases h1 : n < 0
    · rw [if_neg (by omega), if_pos h1, if_pos h1]
    · rw [if_pos (by omega), if_neg h1, if_neg h1, List.append_assoc]
      rfl

theorem greeting_eq (about : About) : startText about.version = greeting about := by
  simp [startText, greeting, textOf]

set_option maxRecDepth 4000 in
theorem sixFiles_eq (par : Params.Params) : filesText par = sixFiles par := by
  simp [filesText, sixFiles, textOf]

set_option maxRecDepth 4000 in
theorem spinsOrbitals_eq (par : Params.Params) : orbitalsText par = spinsOrbitals par := by
  simp [orbitalsText, spinsOrbitals, textOf, orbitalName_eq]

set_option maxRecDepth 4000 in
theorem numbers_eq {α : Type} [Field α] (print : α → Str) (r : Report α) : resultText print r = numbers print r := by
  simp [resultText, numbers, textOf, hartreeToeV]

/-! ### parsing -/

section
open Args
variable {D : Type} [Args.Dbl D]

theorem usageW_eq (about : About) {p : Parser D} (hp : p.flags = (Args.calcJ (D := D)).flags) :
    usageW about (flagSizes calcJFlagSet) p = ⟨answer about (lit "--help"), .ok ()⟩ := by
  unfold usageW
  rw [hp, calcJ_usage, Wrote.say_bind, Wrote.quiet_ok]
  rfl

theorem parseLoopW_info (about : About) (fs : FS) (size allowed : Nat) (p : Parser D) (hp : p.flags = (Args.calcJ (D := D)).flags) {t : Str} (rest : List Str)
    (h : t ∈ infoTokens) :
    (parseLoopW about (flagSizes calcJFlagSet) fs size 0 allowed p (t :: rest)).evs =
      answer about t ++ (if allowed = size then [] else (parseLoopW about (flagSizes calcJFlagSet) fs size 0 (allowed + 1) p rest).evs) := by
  simp only [infoTokens, List.mem_cons, List.not_mem_nil, or_false] at h
  rw [parseLoopW]
  by_cases hh : t = (lit "--help") ∨ t = (lit "-h")
  · have e : answer about t = answer about (lit "--help") := by
      unfold answer; rw [if_pos hh, if_pos (.inl rfl)]
    rw [if_pos hh, usageW_eq about hp, Wrote.bind_ok (w := Wrote.mk _ _) rfl, e]
    split <;> rfl
  · have hc : t = (lit "--citation") ∨ t = (lit "-cite") := by
      rcases h with h | h | h | h
      · exact absurd (.inl h) hh
      · exact absurd (.inr h) hh
      · exact .inl h
      · exact .inr h
    have hv : ¬ (t = (lit "--version") ∨ t = (lit "-version")) := by
      rcases hc with rfl | rfl <;> decide
    have e : answer about t = [.text (citationText about)] := by
      unfold answer
      rw [if_neg hh]
      simp [citationText, textOf]
    rw [if_neg hh, if_neg hv, if_pos hc, Wrote.say_bind, e]
    split <;> rfl

theorem parseLoopW_other (about : About) (fs : FS) (size allowed : Nat) (p : Parser D) {t : Str} (rest : List Str) (h1 : t ∉ infoTokens) (h2 : t ∉ versionTokens) :
    (parseLoopW about (flagSizes calcJFlagSet) fs size 0 allowed p (t :: rest)) =
      (do let r ← Wrote.quiet (parseArg fs p t rest)
          parseLoopW about (flagSizes calcJFlagSet) fs size r.2 allowed r.1 rest) := by
  simp only [infoTokens, List.mem_cons, List.not_mem_nil, or_false, not_or] at h1
  simp only [versionTokens, List.mem_cons, List.not_mem_nil, or_false, not_or] at h2
  rw [parseLoopW]
  rw [if_neg (by rintro (e | e); exacts [h1.1 e, h1.2.1 e]), if_neg (by rintro (e | e); exacts [h2.1 e, h2.2 e]),
    if_neg (by rintro (e | e); exacts [h1.2.2.1 e, h1.2.2.2 e])]

theorem shows_loop (about : About) (fs : FS) (size : Nat) {args us : List Str} (h : Shows args us) : (∀ v ∈ args, Fits v) →
    ∀ (hist : List Asg) (p : Parser D) (allowed : Nat), After fs hist p → p.flags = (Args.calcJ (D := D)).flags → allowed + args.length ≤ size + 1 →
    (parseLoopW about (flagSizes calcJFlagSet) fs size 0 allowed p args).evs = us.flatMap (answer about) := by
  induction h with
  | nil => intros; rfl
  | @info t ts us ht h ih =>
    intro hfit hist p allowed hp hfl hsz
    simp only [List.length_cons] at hsz
    rw [parseLoopW_info about fs size allowed p hfl ts ht, List.flatMap_cons]
    refine congrArg _ ?_
    by_cases hs : allowed = size
    · have : ts = [] := List.eq_nil_of_length_eq_zero (by omega)
      subst this
      cases h
      rw [if_pos hs]; rfl
    · rw [if_neg hs]
      exact ih (fun v hv => hfit v (by simp [hv])) hist p (allowed + 1) hp hfl (by omega)
  | @value f s k t v ts us hf ht hv h ih =>
    intro hfit hist p allowed hp hfl hsz
    simp only [List.length_cons] at hsz
    obtain ⟨n1, n2, -⟩ := value_token hf ht
    rw [parseLoopW_other about fs size allowed p _ n1 n2]
    have e := parseArg_value fs p hp.toCfg hf ht (v :: ts) hp.noFile hp.isFile
    rcases hp.value hf (hfit v (by simp)) with ⟨-, q, hq, hq'⟩ | ⟨hv', -⟩
    · simp only [hq, Res.ok_bind] at e
      rw [e, Wrote.quiet_ok, parseLoopW]
      exact ih (fun v hv => hfit v (by simp [hv])) _ q allowed hq' ((parseArg_flags e).trans hfl) (by omega)
    · exact absurd hv hv'
  | @switch t f ts us hf hn h ih =>
    intro hfit hist p allowed hp hfl hsz
    simp only [List.length_cons] at hsz
    obtain ⟨n1, n2⟩ := switch_tokens _ hf
    rw [parseLoopW_other about fs size allowed p ts n1 n2, parseArg_switch fs p hp.toCfg hf ts hp.noFile hn, Wrote.quiet_ok]
    exact ih (fun v hv => hfit v (by simp [hv])) _ _ allowed (hp.switch hf) hfl (by omega)
  | @version t ts ht =>
    intros
    simp only [versionTokens, List.mem_cons, List.not_mem_nil, or_false] at ht
    rcases ht with rfl | rfl <;> rfl
  | @missing f s k t hf ht =>
    intro hfit hist p allowed hp hfl hsz
    obtain ⟨n1, n2, -⟩ := value_token hf ht
    rw [parseLoopW_other about fs size allowed p _ n1 n2, parseArg_value fs p hp.toCfg hf ht _ hp.noFile hp.isFile]
    rfl
  | @bad f s k t v ts hf ht hb =>
    intro hfit hist p allowed hp hfl hsz
    obtain ⟨n1, n2, -⟩ := value_token hf ht
    rw [parseLoopW_other about fs size allowed p _ n1 n2, parseArg_value fs p hp.toCfg hf ht _ hp.noFile hp.isFile]
    rcases hp.value hf (hfit v (by simp)) with ⟨hv, -⟩ | ⟨-, e', hq, hb'⟩
    · exact absurd hv hb
    · simp only [hq, Res.throw_bind]
      rfl
  | @stray t f v r hf hv =>
    intro hfit hist p allowed hp hfl hsz
    obtain ⟨n1, n2⟩ := switch_tokens _ hf
    rw [parseLoopW_other about fs size allowed p _ n1 n2]
    obtain ⟨c1, c2, c3⟩ := parseArg_switch_value fs p hp.toCfg hf r hp.noFile hv
    by_cases w1 : v ∈ onWords ∨ v ∈ offWords
    · have hvw : v ∉ infoTokens ∧ v ∉ versionTokens := by
        have a : ∀ x ∈ onWords ++ offWords, x ∉ infoTokens ∧ x ∉ versionTokens := by decide
        exact a v (List.mem_append.2 w1)
      rcases w1 with w1 | w1
      · rw [c2 w1, Wrote.quiet_ok]
        dsimp only
        rw [parseLoopW_other _ _ _ _ _ _ hvw.1 hvw.2,
          parseArg_unknown fs { p with strs := p.strs.set f v, ints := p.ints.set f 1 } ⟨hp.strArg, hp.switchArg, hp.intArg, hp.doubleArg, hp.names⟩ hv r hp.noFile]
        rfl
      · rw [c3 w1, Wrote.quiet_ok]
        dsimp only
        rw [parseLoopW_other _ _ _ _ _ _ hvw.1 hvw.2,
          parseArg_unknown fs { p with strs := p.strs.set f v, ints := p.ints.set f 0 } ⟨hp.strArg, hp.switchArg, hp.intArg, hp.doubleArg, hp.names⟩ hv r hp.noFile]
        rfl
    · rw [c1 (fun h => w1 (.inl h)) (fun h => w1 (.inr h))]
      rfl
  | @unknown t ts ht hver =>
    intro hfit hist p allowed hp hfl hsz
    have hi : t ∉ infoTokens := fun h => ht (known_tokens.2.2 t h)
    rw [parseLoopW_other about fs size allowed p ts hi hver, parseArg_unknown fs p hp.toCfg ht ts hp.noFile]
    rfl

/-- Some requests are reached on every command line. -/
theorem shows_exists : ∀ (n : Nat) (args : List Str), args.length ≤ n → ∃ us, Shows args us := by
  intro n
  induction n with
  | zero =>
    intro args hl
    have : args = [] := List.eq_nil_of_length_eq_zero (by omega)
    subst this
    exact ⟨_, .nil⟩
  | succ n ih =>
    intro args hl
    cases args with
    | nil => exact ⟨_, .nil⟩
    | cons t rest =>
      simp only [List.length_cons] at hl
      rcases tokens_known t with ht | ht | ⟨f, s, k, hf, ht⟩ | ⟨f, hf⟩ | ht
      · obtain ⟨us, h⟩ := ih rest (by omega)
        exact ⟨_, .info ht h⟩
      · exact ⟨_, .version ht⟩
      · cases rest with
        | nil => exact ⟨_, .missing hf ht⟩
        | cons v r =>
          simp only [List.length_cons] at hl
          obtain ⟨us, h⟩ := ih r (by omega)
          by_cases hv : ValueOk k v
          · exact ⟨_, .value hf ht hv h⟩
          · exact ⟨_, .bad hf ht hv⟩
      · by_cases hn : ∀ u us, rest = u :: us → u ∈ flagTokens
        · obtain ⟨us, h⟩ := ih rest (by omega)
          exact ⟨_, .switch hf hn h⟩
        · cases rest with
          | nil => exact absurd (by intro u us h; cases h) hn
          | cons v r =>
            refine ⟨_, .stray hf fun hv => hn ?_⟩
            intro u us h
            cases h; exact hv
      · by_cases hver : t ∈ versionTokens
        · exact ⟨_, .version hver⟩
        · exact ⟨_, .unknown ht hver⟩

theorem parsing_shows (about : About) (files : Str → Option Str) {args us : List Str} (h0 : args ≠ []) (hfit : ∀ v ∈ args, Fits v) (h : Shows args us) :
    parsing D about files args = us.flatMap (answer about) := by
  unfold parsing parseW
  rw [if_neg h0, Wrote.bind_evs, shows_loop about (fsOf files) (args.length + 1) h hfit [] (Args.calcJ (D := D)) 2 (After.init _) rfl (by omega)]
  split
  · simp only [Wrote.bind_evs, Wrote.quiet_evs, Wrote.pure_evs]
    split <;> simp
  · simp

theorem parsing_nothing (about : About) (files : Str → Option Str) : parsing D about files [] = answer about (lit "--help") := by
  unfold parsing parseW
  rw [if_pos rfl, usageW_eq about rfl, Wrote.bind_ok (w := Wrote.mk _ _) rfl]
  simp

theorem shows_info {args : List Str} (h : ∀ t ∈ args, t ∈ infoTokens) : Shows args args := by
  induction args with
  | nil => exact .nil
  | cons t ts ih => exact .info (h t (by simp)) (ih fun u hu => h u (by simp [hu]))

end

/-! ### the whole -/

theorem Does.fails {γ : Type} {f : Nat → Res γ} {out : Res γ} (h : Does f out) (ho : ∀ a, out ≠ .ok a) : ∃ N, ∀ n, N ≤ n → ∀ a, f n ≠ .ok a := by
  have key : Ends f out → ∃ N, ∀ n, N ≤ n → ∀ a, f n ≠ .ok a := by
    rintro ⟨-, N, hN⟩
    exact ⟨N, fun n hn a e => ho a ((hN n hn).symm.trans e)⟩
  cases out with
  | ok a => exact absurd rfl (ho a)
  | diverge => exact ⟨0, fun n _ a e => by have := h n; rw [e] at this; cases this⟩
  | throw e => exact key h
  | exit e => exact key h
  | ub => exact key h

theorem Does.gives {γ : Type} {f : Nat → Res γ} {a : γ} (h : Does f (.ok a)) : ∃ N, ∀ n, N ≤ n → f n = .ok a := h.2

theorem Performs.unique {γ : Type} {f : Nat → Wrote γ} {a b : Wrote γ} (ha : Performs f a) (hb : Performs f b) : a = b := by
  obtain ⟨a1, N, a2⟩ := ha
  obtain ⟨b1, M, b2⟩ := hb
  exact Wrote.ext ((a2 (max N M) (Nat.le_max_left _ _)).symm.trans (b2 (max N M) (Nat.le_max_right _ _))) (Does.unique a1 b1)

section
variable {α β : Type} [Field α] [Num α] [DecidableEq β] {D : Type} [Args.Dbl D]

/-- What is written once the atoms are in order. -/
def ending (print : α → Str) (par : Params.Params) (r : Res (Report α)) : List Ev :=
  .text (spinsOrbitals par) :: .flush :: (match r with | .ok r => [.text (numbers print r)] | _ => [])

theorem rest_evs {γ : Type} (print : α → Str) (par : Params.Params) (x : Res γ) (rep : γ → Res (Report α)) :
    (do let x ← Wrote.quiet x
        Wrote.line (spinsOrbitals par)
        let r ← Wrote.quiet (rep x)
        Wrote.say (numbers print r)
        pure (par, r) : Wrote (Params.Params × Report α)).evs = (match x with | .ok x => ending print par (rep x) | _ => []) := by
  cases x with
  | ok x =>
    rw [Wrote.quiet_ok, Wrote.line_bind]
    unfold ending
    dsimp only
    cases rep x <;> rfl
  | _ => rfl

theorem calcJSays_res (tos : α → β) (print : α → Str) (par : Params.Params) (spinP spin1 spin2 : Log.Spin) (punP pun1 pun2 : Res (Pun.Known α))
    (logP log1 log2 : Res (LogLines.Known α × List Int)) :
    (calcJSays tos print par spinP spin1 spin2 punP pun1 pun2 logP log1 log2).res = calcJ tos par spinP spin1 spin2 punP pun1 pun2 logP log1 log2 := by
  unfold calcJSays calcJ
  simp only [Wrote.bind_res, Wrote.quiet_res, Wrote.say_res, Wrote.line_res, Wrote.pure_res, Res.ok_bind, outcome_split, bind_assoc]

/-- What the calculation knows when the orbitals are printed. -/
noncomputable def stage (tos : α → β) (par : Params.Params) (spinP spin1 spin2 : Log.Spin) (punP pun1 pun2 : Res (Pun.Known α))
    (logP log1 log2 : Res (LogLines.Known α × List Int)) : Res (Ready α) := do
  let punP ← punP
  let pun1 ← pun1
  let pun2 ← pun2
  let logP ← logP
  let log1 ← log1
  let log2 ← log2
  ready tos par.counterPoise logP.1.overlap (found spinP punP logP) (found spin1 pun1 log1) (found spin2 pun2 log2)

theorem calcJSays_evs (tos : α → β) (print : α → Str) (par : Params.Params) (spinP spin1 spin2 : Log.Spin) (punP pun1 pun2 : Res (Pun.Known α))
    (logP log1 log2 : Res (LogLines.Known α × List Int)) :
    (calcJSays tos print par spinP spin1 spin2 punP pun1 pun2 logP log1 log2).evs = .text (sixFiles par) ::
      (match stage tos par spinP spin1 spin2 punP pun1 pun2 logP log1 log2 with
      | .ok x => ending print par (finish par.counterPoise par.orbType1 par.orbNum1 par.orbType2 par.orbNum2 x)
      | _ => []) := by
  unfold calcJSays stage
  rw [Wrote.say_bind]
  dsimp only
  refine congrArg _ ?_
  cases punP with
  | ok punP =>
    cases pun1 with
    | ok pun1 =>
      cases pun2 with
      | ok pun2 =>
        cases logP with
        | ok logP =>
          cases log1 with
          | ok log1 =>
            cases log2 with
            | ok log2 =>
              simp only [Wrote.quiet_ok, Res.ok_bind]
              rw [rest_evs]
              cases ready tos par.counterPoise logP.1.overlap (found spinP punP logP) (found spin1 pun1 log1) (found spin2 pun2 log2) <;> rfl
            | _ => rfl
          | _ => rfl
        | _ => rfl
      | _ => rfl
    | _ => rfl
  | _ => rfl

/-- How far the program gets with these six files. -/
theorem stage_does (tos : α → β) (files : Str → Option Str) {par : Params.Params} {κ : Type} (g : TransferComplex α → κ) (s : Ready α → κ)
    (hn : ∀ name ∈ [par.punP, par.pun1, par.pun2, par.logP, par.log1, par.log2], Fits name)
    (ht : ∀ name ∈ [par.punP, par.pun1, par.pun2, par.logP, par.log1, par.log2], ∀ text, files name = some text → Fits text)
    (hg : ∀ T x, reportOf par T = finish par.counterPoise par.orbType1 par.orbNum1 par.orbType2 par.orbNum2 x → g T = s x)
    {spinP spin1 spin2 : Log.Spin} (sP : par.spinP = spinP.name) (s1 : par.spin1 = spin1.name) (s2 : par.spin2 = spin2.name)
    {punP pun1 pun2 : Res (Pun.Known α)} {logP log1 log2 : Res (LogLines.Known α × List Int)}
    (hpP : PunFile files par.punP punP) (hp1 : PunFile files par.pun1 pun1) (hp2 : PunFile files par.pun2 pun2)
    (hlP : LogFile files par.logP logP) (hl1 : LogFile files par.log1 log1) (hl2 : LogFile files par.log2 log2) :
    Does (fun fuel => (do
        let ((prP, pr1, pr2), (lrP, lr1, lr2)) ← readFiles files fuel par
        let T ← complexOf tos par prP pr1 pr2 lrP lr1 lr2
        Res.ok (g T)))
      (do let x ← stage tos par spinP spin1 spin2 punP pun1 pun2 logP log1 log2
          .ok (s x)) := by
  unfold readFiles stage
  simp only [bind_assoc, Res.ok_bind]
  refine Comes.bind (readPun_mono _ _) (pun_comes (hn _ (by simp)) (ht _ (by simp)) hpP) fun prP dP hP => ?_
  refine Comes.bind (readPun_mono _ _) (pun_comes (hn _ (by simp)) (ht _ (by simp)) hp1) fun pr1 d1 h1 => ?_
  refine Comes.bind (readPun_mono _ _) (pun_comes (hn _ (by simp)) (ht _ (by simp)) hp2) fun pr2 d2 h2 => ?_
  refine Comes.bind (readLog_mono _ _) (log_comes (hn _ (by simp)) (ht _ (by simp)) hlP) fun lrP bP gP => ?_
  refine Comes.bind (readLog_mono _ _) (log_comes (hn _ (by simp)) (ht _ (by simp)) hl1) fun lr1 b1 g1 => ?_
  refine Comes.bind (readLog_mono _ _) (log_comes (hn _ (by simp)) (ht _ (by simp)) hl2) fun lr2 b2 g2 => ?_
  have := complex_ready tos par hP h1 h2 gP.1 g1.1 g2.1 sP s1 s2
  rw [gP.2, g1.2, g2.2] at this
  have e := Res.Like.eq (Res.Like.bind (R' := Eq) this (f := fun T => Res.ok (g T)) (g := fun x => Res.ok (s x)) fun T x h => hg T x h)
  simp only [e]
  exact Does.const _

theorem understood_performs (tos : α → β) (print : α → Str) (about : About) {files : Str → Option Str} (hfit : ∀ name text, files name = some text → Fits text)
    {pun : Str → Res (Pun.Known α)} (hpun : ∀ name, PunFile files name (pun name))
    {log : Str → Res (LogLines.Known α × List Int)} (hlog : ∀ name, LogFile files name (log name))
    {args : List Str} (hargs : ∀ v ∈ args, v.length + 4 < 2 ^ 63) {as : List Args.Asg} (hu : Understood args as) {us : List Str} (hs : Shows args us)
    {r : Str → Option Str}
    (ht : ∀ x ∈ Args.inputFiles, Args.Takes (fsOf files) as x.1 x.2.1 x.2.2 (r x.1)) {n1 n2 : Int} {spinP spin1 spin2 : Log.Spin}
    (a1 : Args.AskedNum as (lit "--orbital_num_1") n1) (a2 : Args.AskedNum as (lit "--orbital_num_2") n2)
    (sP : Args.askedSpin as (lit "--spin_P") = spinP.name) (s1 : Args.askedSpin as (lit "--spin_1") = spin1.name)
    (s2 : Args.askedSpin as (lit "--spin_2") = spin2.name) :
    Performs (fun fuel => calcJWrites D tos print about files fuel args) (do
        Wrote.mk (preamble about us) (.ok ())
        let par ← .quiet (parameters as r n1 n2)
        calcJSays tos print par spinP spin1 spin2 (pun par.punP) (pun par.pun1) (pun par.pun2) (log par.logP) (log par.log1) (log par.log2)) := by
  have hfits : ∀ v ∈ args, Fits v := fun v hv => by unfold Fits; have := hargs v hv; omega
  have h0 : args ≠ [] := by
    rintro rfl
    have := hu.reads
    cases this
    exact hu.said rfl
  constructor
  · have := understood_does (D := D) tos hfit hpun hlog hargs hu ht a1 a2 sP s1 s2
    simp only [calcJWrites_res, Wrote.bind_res, Wrote.quiet_res, calcJSays_res]
    exact this
  · obtain ⟨q, hq⟩ := (Args.C59_accepted (D := D) (fsOf files) args hfits).1.2 ⟨as, hu.reads, hu.said, hu.ok⟩
    have hp := C124_parameters (fsOf files) hargs hq hu.reads ht a1 a2
    have pre : ∀ {γ : Type} (w : Wrote γ), ((Wrote.mk (.text (startText about.version) :: .flush :: parsing D about files args) (.ok ()) : Wrote Unit) >>= fun _ => w).evs =
        preamble about us ++ w.evs := by
      intro γ w
      rw [Wrote.bind_ok (w := Wrote.mk _ _) rfl, parsing_shows about files h0 hfits hs, greeting_eq]
      rfl
    simp only [calcJWrites_eq, hq, Wrote.quiet_ok, hp, pre]
    simp only [Wrote.bind_ok (w := Wrote.mk (preamble about us) (.ok ())) rfl]
    cases hpar : parameters as r n1 n2 with
    | ok par =>
      obtain ⟨f1, f2, f3, f4, f5, f6, t1, t2, t3⟩ := parameters_ok hpar
      have hlen : ∀ x ∈ Args.inputFiles, ∀ e ∈ x.2.2, e.length ≤ 4 := by decide
      have fit : ∀ x ∈ Args.inputFiles, ∀ y, r x.1 = some y → Fits y := fun x hx y hy => by
        have h := ht x hx
        rw [hy] at h
        exact takes_fits hargs hu.reads (hlen x hx) h
      have hn : ∀ name ∈ [par.punP, par.pun1, par.pun2, par.logP, par.log1, par.log2], Fits name := by
        intro name hn
        simp only [List.mem_cons, List.not_mem_nil, or_false] at hn
        rcases hn with h | h | h | h | h | h <;> rw [h]
        · exact fit (lit "--pun_P", lit "--log_P", [lit ".orb", lit ".7", lit ".pun"]) (by decide) _ f1
        · exact fit (lit "--pun_1", lit "--log_1", [lit ".orb", lit ".7", lit ".pun"]) (by decide) _ f2
        · exact fit (lit "--pun_2", lit "--log_2", [lit ".orb", lit ".7", lit ".pun"]) (by decide) _ f3
        · exact fit (lit "--log_P", lit "--pun_P", [lit ".log"]) (by decide) _ f4
        · exact fit (lit "--log_1", lit "--pun_1", [lit ".log"]) (by decide) _ f5
        · exact fit (lit "--log_2", lit "--pun_2", [lit ".log"]) (by decide) _ f6
      simp only [Wrote.quiet_ok, calcJSays_evs]
      have key := stage_does tos files (par := par) (g := fun T => ending print par (reportOf par T))
        (s := fun x => ending print par (finish par.counterPoise par.orbType1 par.orbNum1 par.orbType2 par.orbNum2 x)) hn
        (fun name _ text h => hfit name text h) (fun T x h => by rw [h]) (t1.trans sP) (t2.trans s1) (t3.trans s2)
        (hpun _) (hpun _) (hpun _) (hlog _) (hlog _) (hlog _)
      have ev : ∀ fuel, (do
          Wrote.say (filesText par)
          let ((prP, pr1, pr2), (lrP, lr1, lr2)) ← Wrote.quiet (readFiles files fuel par)
          let T ← Wrote.quiet (complexOf tos par prP pr1 pr2 lrP lr1 lr2)
          Wrote.line (orbitalsText par)
          let r ← Wrote.quiet (reportOf par T)
          Wrote.say (resultText print r)
          pure (par, r) : Wrote (Params.Params × Report α)).evs = .text (sixFiles par) ::
          (match (do
            let ((prP, pr1, pr2), (lrP, lr1, lr2)) ← readFiles files fuel par
            let T ← complexOf tos par prP pr1 pr2 lrP lr1 lr2
            Res.ok (ending print par (reportOf par T))) with
          | .ok l => l
          | _ => []) := by
        intro fuel
        rw [Wrote.say_bind, sixFiles_eq]
        dsimp only
        refine congrArg _ ?_
        cases (readFiles files fuel par : Res ((PunData α × PunData α × PunData α) × (LogData α × LogData α × LogData α))) with
        | ok x =>
          obtain ⟨⟨prP, pr1, pr2⟩, lrP, lr1, lr2⟩ := x
          simp only [Wrote.quiet_ok, Res.ok_bind, spinsOrbitals_eq, numbers_eq]
          rw [rest_evs]
          cases complexOf tos par prP pr1 pr2 lrP lr1 lr2 <;> rfl
        | _ => rfl
      cases hst : stage tos par spinP spin1 spin2 (pun par.punP) (pun par.pun1) (pun par.pun2) (log par.logP) (log par.log1) (log par.log2) with
      | ok x =>
        rw [hst, Res.ok_bind] at key
        obtain ⟨N, hN⟩ := key.gives
        refine ⟨N, fun n hn => ?_⟩
        rw [ev n, hN n hn]
      | _ =>
        rw [hst] at key
        obtain ⟨N, hN⟩ := key.fails (by simp)
        refine ⟨N, fun n hn => ?_⟩
        rw [ev n]
        split
        · rename_i l e; exact absurd e (hN n hn _)
        · rfl
    | _ => exact ⟨0, fun n _ => by simp only [Wrote.bind_evs, Wrote.quiet_evs, Wrote.quiet_res]⟩

theorem writes_performs (tos : α → β) (print : α → Str) (about : About) {files : Str → Option Str} (hfit : ∀ name text, files name = some text → Fits text)
    {pun : Str → Res (Pun.Known α)} (hpun : ∀ name, PunFile files name (pun name))
    {log : Str → Res (LogLines.Known α × List Int)} (hlog : ∀ name, LogFile files name (log name))
    {args : List Str} (hargs : ∀ v ∈ args, v.length + 4 < 2 ^ 63) {w : Wrote (Params.Params × Report α)}
    (h : Writes tos print about files pun log args w) : Performs (fun fuel => calcJWrites D tos print about files fuel args) w := by
  have hfits : ∀ v ∈ args, Fits v := fun v hv => by unfold Fits; have := hargs v hv; omega
  have stop : ∀ {x : Res (Params.Params × Report α)} {evs : List Ev}, Line tos files pun log args x → (∀ q, Args.parse (fsOf files) (Args.calcJ (D := D)) args ≠ .ok q) →
      parsing D about files args = evs → Performs (fun fuel => calcJWrites D tos print about files fuel args) ⟨[.text (greeting about), .flush] ++ evs, x⟩ := by
    intro x evs hl hp he
    constructor
    · simp only [calcJWrites_res]
      exact line_does tos hfit hpun hlog hargs hl
    · refine ⟨0, fun n _ => ?_⟩
      simp only [calcJWrites_eq]
      rw [Wrote.bind_ok (w := Wrote.mk _ _) rfl, Wrote.quiet_fail hp, he, greeting_eq]
      simp
  have refuse : ∀ {x : Res (Args.Parser D)}, Args.parse (fsOf files) (Args.calcJ (D := D)) args = x → (∀ q, x ≠ .ok q) →
      ∀ q, Args.parse (fsOf files) (Args.calcJ (D := D)) args ≠ .ok q := by
    intro x h1 h2 q h3
    exact h2 q (h1.symm.trans h3)
  have hx := (Args.C63_outcomes (D := D) (fsOf files) args hfits).2.2
  cases h with
  | version h hs =>
    have h0 : args ≠ [] := by rintro rfl; cases h
    exact stop (.version h) (refuse (hx (.inr h)) (by simp)) (parsing_shows about files h0 hfits hs)
  | info h0 h => exact stop (.info h0 h) (refuse (hx (.inl ⟨h0, h⟩)) (by simp)) (parsing_shows about files h0 hfits (shows_info h))
  | nothing h =>
    subst h
    have := stop (.nothing rfl) (refuse (x := .throw .runtimeError) rfl (by simp)) (parsing_nothing (D := D) about files)
    simpa [preamble] using this
  | @refused e us h hs =>
    have h0 : args ≠ [] := by rintro rfl; cases h
    refine stop (.refused h) (refuse (x := .throw e) ?_ (by simp)) (parsing_shows about files h0 hfits hs)
    unfold Args.parse
    rw [if_neg h0, Args.refused_loop (D := D) (fsOf files) (args.length + 1) h hfits [] (Args.calcJ (D := D)) 2 (Args.After.init _) (by omega)]
    rfl
  | understood hu hs ht a1 a2 eP e1 e2 => exact understood_performs tos print about hfit hpun hlog hargs hu hs ht a1 a2 eP e1 e2

theorem writes_exists (tos : α → β) (print : α → Str) (about : About) {files : Str → Option Str} (hfit : ∀ name text, files name = some text → Fits text)
    {pun : Str → Res (Pun.Known α)} (hpun : ∀ name, PunFile files name (pun name))
    {log : Str → Res (LogLines.Known α × List Int)} (hlog : ∀ name, LogFile files name (log name))
    {args : List Str} (hargs : ∀ v ∈ args, v.length + 4 < 2 ^ 63) : ∃ w, Writes tos print about files pun log args w := by
  let _ : Args.Dbl (Option Int) := Args.dblNaN
  obtain ⟨out, h, -⟩ := line_exists (D := Option Int) tos hfit hpun hlog hargs
  obtain ⟨us, hs⟩ := shows_exists _ args (Nat.le_refl _)
  cases h with
  | version h => exact ⟨_, .version h hs⟩
  | info h0 h => exact ⟨_, .info h0 h⟩
  | nothing h => exact ⟨_, .nothing h⟩
  | refused h => exact ⟨_, .refused h hs⟩
  | understood hu ht a1 a2 eP e1 e2 => exact ⟨_, .understood hu hs ht a1 a2 eP e1 e2⟩

/-- **C128.** On any command line, with any files, calc_J writes exactly what `Writes` says, and ends so. -/
theorem C128_writes (tos : α → β) (print : α → Str) (about : About) (files : Str → Option Str) (hfit : ∀ name text, files name = some text → Fits text)
    (pun : Str → Res (Pun.Known α)) (hpun : ∀ name, PunFile files name (pun name))
    (log : Str → Res (LogLines.Known α × List Int)) (hlog : ∀ name, LogFile files name (log name))
    (args : List Str) (hargs : ∀ v ∈ args, v.length + 4 < 2 ^ 63) (w : Wrote (Params.Params × Report α)) :
    Performs (fun fuel => calcJWrites D tos print about files fuel args) w ↔ Writes tos print about files pun log args w := by
  constructor
  · intro h
    obtain ⟨w', hw⟩ := writes_exists tos print about hfit hpun hlog hargs
    rw [Performs.unique h (writes_performs (D := D) tos print about hfit hpun hlog hargs hw)]
    exact hw
  · exact writes_performs tos print about hfit hpun hlog hargs

/-- **C128 (totality).** So there is always something definite that calc_J writes. -/
theorem C128_total (tos : α → β) (print : α → Str) (about : About) (files : Str → Option Str) (hfit : ∀ name text, files name = some text → Fits text)
    (args : List Str) (hargs : ∀ v ∈ args, v.length + 4 < 2 ^ 63) :
    ∃ w : Wrote (Params.Params × Report α), Performs (fun fuel => calcJWrites D tos print about files fuel args) w := by
  obtain ⟨pun, hpun⟩ := Classical.axiomOfChoice (fun name => (C122_reading (α := α) files name).1)
  obtain ⟨log, hlog⟩ := Classical.axiomOfChoice (fun name => (C122_reading (α := α) files name).2)
  obtain ⟨w, h⟩ := writes_exists tos print about hfit hpun hlog hargs
  exact ⟨w, writes_performs tos print about hfit hpun hlog hargs h⟩

/-- **C128 (the same program).** The writing changes nothing: the run ends as C122, C124 and the others say. -/
theorem C128_same (tos : α → β) (print : α → Str) (about : About) (files : Str → Option Str) (fuel : Nat) (args : List Str) :
    (calcJWrites D tos print about files fuel args).res = calcJRun D tos files fuel args := calcJWrites_res tos print about files fuel args

omit [DecidableEq β] in
theorem sure_cons (s : Str) (evs : List Ev) : sure (.text s :: .flush :: evs) = s ++ sure evs := by
  simp [sure]

/-- Whatever is seen starts with what was flushed at the start. -/
theorem seen_prefix {γ : Type} {w : Wrote γ} {t s : Str} {evs : List Ev} (h : w.evs = .text s :: .flush :: evs) (hs : Seen w t) (hub : w.res ≠ .ub) : s <+: t := by
  have h1 : s <+: sure w.evs := by rw [h, sure_cons]; exact List.prefix_append _ _
  have h2 : s <+: said w.evs := h1.trans (sure_prefix _)
  unfold Seen at hs
  split at hs
  · rw [hs]; exact h2
  · exact h2.trans hs.1
  · exact h1.trans hs.1
  · exact h1.trans hs.1
  · rename_i e; exact absurd e hub

/-- **C128 (the version).** Whatever the command line and the files are, however the run ends and even if it never ends, its output starts with an empty
line and a line with the version, unless the behaviour is undefined. -/
theorem C128_version_first (tos : α → β) (print : α → Str) (about : About) (files : Str → Option Str)
    (args : List Str) {w : Wrote (Params.Params × Report α)} (h : Performs (fun fuel => calcJWrites D tos print about files fuel args) w)
    (hub : w.res ≠ .ub) {t : Str} (ht : Seen w t) : (lit "\nRunning calc_J VERSION ") ++ about.version ++ (lit "\n") <+: t := by
  obtain ⟨-, N, hN⟩ := h
  have := hN N (Nat.le_refl _)
  simp only [calcJWrites_eq] at this
  rw [Wrote.bind_ok (w := Wrote.mk _ _) rfl] at this
  exact seen_prefix this.symm ht hub

/-- **C128 (no arguments).** Run without arguments calc_J throws, and exactly the version and the usage are seen. -/
theorem C128_nothing (tos : α → β) (print : α → Str) (about : About) (files : Str → Option Str) (hfit : ∀ name text, files name = some text → Fits text)
    {w : Wrote (Params.Params × Report α)} (h : Performs (fun fuel => calcJWrites D tos print about files fuel []) w) (t : Str) :
    w.res = .throw .runtimeError ∧ (Seen w t ↔
      t = (lit "\nRunning calc_J VERSION ") ++ about.version ++ (lit "\nUsage: ") ++ about.program ++ (lit " <options(s)> SOURCES") ++ Args.calcJHelp) := by
  obtain ⟨pun, hpun⟩ := Classical.axiomOfChoice (fun name => (C122_reading (α := α) files name).1)
  obtain ⟨log, hlog⟩ := Classical.axiomOfChoice (fun name => (C122_reading (α := α) files name).2)
  have hw := Performs.unique h (writes_performs (D := D) tos print about hfit hpun hlog (by simp) (.nothing rfl))
  subst hw
  refine ⟨rfl, ?_⟩
  have e1 : said (preamble about [(lit "--help")]) = (lit "\nRunning calc_J VERSION ") ++ about.version ++ (lit "\nUsage: ") ++ about.program ++
      (lit " <options(s)> SOURCES") ++ Args.calcJHelp := by
    simp [preamble, answer, greeting, textOf, said]
  have e2 : sure (preamble about [(lit "--help")]) = said (preamble about [(lit "--help")]) := by
    have : preamble about [(lit "--help")] = [.text (greeting about), .flush, .text ((lit "Usage: ") ++ about.program ++ (lit " <options(s)> SOURCES")),
        .text Args.calcJHelp] ++ [.flush] := by
      simp [preamble, answer]
    rw [this, sure_append_flush, said_append]
    simp [said]
  show (sure _ <+: t ∧ t <+: said _) ↔ _
  rw [e2, e1]
  constructor
  · rintro ⟨h1, h2⟩
    exact List.IsPrefix.eq_of_length h2 (Nat.le_antisymm h2.length_le h1.length_le)
  · rintro rfl
    exact ⟨List.prefix_rfl, List.prefix_rfl⟩

end

/-- **C128 (the help text).** It consists of these words: `Options:`, and for each flag its full name, its abbreviation and its
description. -/
theorem C128_help : ∃ p : Args.Parser Unit, Args.newParser Args.calcJFlagSet = .ok p ∧
    splitSt Args.calcJHelp = (lit "Options:") :: p.flags.flatMap (fun f => splitSt f.1 ++ splitSt f.2.1 ++ splitSt f.2.2) := by
  obtain ⟨p, text, h1, h2, h3⟩ := Args.C85_calcJ
  refine ⟨p, h1, ?_⟩
  unfold Args.calcJHelp
  rw [h1]
  dsimp only
  rw [h2]
  exact h3

theorem help_newline : ∃ a, Args.calcJHelp = a ++ ['\n'] := by
  obtain ⟨p, text, h1, h2, -⟩ := Args.C85_calcJ
  unfold Args.calcJHelp
  rw [h1]
  dsimp only
  rw [h2]
  dsimp only
  unfold Args.showUsage at h2
  obtain ⟨out, -, e⟩ := Res.bind_eq_ok.1 h2
  exact ⟨out, (Res.ok.inj e).symm⟩

theorem answers_newline (about : About) (us : List Str) : said (us.flatMap (answer about)) = [] ∨ ∃ a, said (us.flatMap (answer about)) = a ++ ['\n'] := by
  induction us with
  | nil => exact .inl rfl
  | cons u us ih =>
    right
    rw [List.flatMap_cons, said_append]
    have h1 : ∃ a, said (answer about u) = a ++ ['\n'] := by
      unfold answer
      split
      · obtain ⟨a, e⟩ := help_newline
        exact ⟨(lit "Usage: ") ++ about.program ++ (lit " <options(s)> SOURCES") ++ a, by simp [said, e]⟩
      · exact ⟨textOf [[], (lit "Citation: ") ++ about.surname ++ (lit ", ") ++ about.initials ++ (lit " (") ++ about.year ++ (lit "). ") ++
          about.title ++ (lit " (Version ") ++ about.version ++ (lit "). [Software]. Available from ") ++ about.url ++ (lit ".")], by simp [said, textOf]⟩
    rcases ih with e | ⟨a, e⟩
    · rw [e, List.append_nil]; exact h1
    · rw [e]; exact ⟨said (answer about u) ++ a, by simp⟩

section
variable {α β : Type} [Field α] [Num α] [DecidableEq β] {D : Type} [Args.Dbl D]

/-- C82 (what was computed): the output of a run that ends normally has lines with the names of the six files, the spins, and the
labels of the two orbitals. -/
theorem _root_.Verif.C82_names (tos : α → β) (print : α → Str) (about : About) (files : Str → Option Str) (fuel : Nat) (args : List Str) (hargs : ∀ v ∈ args, Fits v)
    {par : Params.Params} {r : Report α} (h : calcJRun D tos files fuel args = .ok (par, r)) :
    ∃ t, calcJOutput D tos print about files fuel args = .ok t ∧
    ∀ line ∈ [(lit "log file for first monomer is:      ") ++ par.log1, (lit "log file for second monomer is:     ") ++ par.log2,
        (lit "log file for dimer is:              ") ++ par.logP, (lit "pun file for the first monomer is:  ") ++ par.pun1,
        (lit "pun file for the second monomer is: ") ++ par.pun2, (lit "pun file for the dimer is:          ") ++ par.punP,
        (lit "Dimer     Spin ") ++ par.spinP,
        (lit "Monomer 1 Spin ") ++ par.spin1 ++ (lit " Orbital ") ++ orbitalLabel par.orbType1 par.orbNum1,
        (lit "Monomer 2 Spin ") ++ par.spin2 ++ (lit " Orbital ") ++ orbitalLabel par.orbType2 par.orbNum2],
      HasLine t line := by
  have key : ∀ (lines : List Str) (line : Str), line ∈ lines → HasLine (textOf lines) line := by
    intro lines
    induction lines with
    | nil => intro line h; cases h
    | cons l ls ih =>
      intro line h
      rcases List.mem_cons.1 h with rfl | h
      · exact ⟨[], textOf ls, by simp [textOf], .inl rfl⟩
      · exact hasLine_append (l ++ ['\n']) (.inr ⟨l, rfl⟩) (ih line h)
  have h0 : args ≠ [] := by
    rintro rfl
    unfold calcJRun at h
    rw [Args.prepareParser_ok] at h
    cases h
  obtain ⟨us, hs⟩ := shows_exists _ args (Nat.le_refl _)
  refine ⟨_, by rw [calcJOutput_eq, h, Res.ok_bind], ?_⟩
  intro line hl
  rw [parsing_shows about files h0 hargs hs]
  unfold outputText
  dsimp only
  rw [sixFiles_eq, spinsOrbitals_eq, numbers_eq, greeting_eq]
  have pre : greeting about ++ said (us.flatMap (answer about)) = [] ∨ ∃ p, greeting about ++ said (us.flatMap (answer about)) = p ++ ['\n'] := by
    right
    rcases answers_newline about us with e | ⟨a, e⟩
    · rw [e]; exact ⟨(lit "\nRunning calc_J VERSION ") ++ about.version, by simp [greeting, textOf]⟩
    · rw [e]; exact ⟨greeting about ++ a, by simp⟩
  have app : ∀ ls ls' : List Str, textOf ls ++ textOf ls' = textOf (ls ++ ls') := fun ls ls' => by simp [textOf]
  rw [List.append_assoc, List.append_assoc]
  refine hasLine_append _ pre ?_
  unfold sixFiles spinsOrbitals numbers
  rw [app, app]
  refine key _ _ ?_
  simp only [orbitalName_eq] at hl
  simp only [List.mem_cons, List.not_mem_nil, or_false] at hl
  simp only [List.mem_append, List.mem_cons, List.not_mem_nil, or_false]
  rcases hl with h | h | h | h | h | h | h | h | h <;> simp only [h, true_or, or_true]

end

end Verif.Run
