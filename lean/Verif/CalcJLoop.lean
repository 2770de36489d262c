import Verif.CalcJ
import Verif.Props.Properties
import Verif.Props.Stoi
/-
The calc_J parser on a whole command line.
-/
namespace Verif.Args
open Strings
section
variable {D : Type}

theorem parseArg_switch [Dbl D] (fs : FS) (p : Parser D) (hp : Cfg p) {f t : Str} (h : (t, f) ∈ switchTokens)
    (rest : List Str) (hfile : ∀ g ∉ fileNames, p.fileArg.get g = none) :
    (∀ u us, rest = u :: us → u ∈ flagTokens) → parseArg fs p t rest = .ok ({ p with ints := p.ints.set f 1 }, 0) := by
  intro hn
  have hr : resolve p t = f := by
    rw [resolve_names, hp.names]
    exact resolve_switch _ h
  have hk : ∀ x ∈ switchTokens, x.2 ∈ [lit "--counter_poise", lit "--version"] := by decide
  have hm : f ∈ [lit "--counter_poise", lit "--version"] := hk _ h
  have h1 : p.strArg.get f = none := by
    rw [hp.strArg]
    simp only [List.mem_cons, List.not_mem_nil, or_false] at hm
    rcases hm with rfl | rfl <;> rfl
  have h2 : p.switchArg.get f = some newArgumentSwitch := by
    rw [hp.switchArg]
    simp only [List.mem_cons, List.not_mem_nil, or_false] at hm
    rcases hm with rfl | rfl <;> rfl
  have h3 : p.intArg.get f = none := by
    rw [hp.intArg]
    simp only [List.mem_cons, List.not_mem_nil, or_false] at hm
    rcases hm with rfl | rfl <;> rfl
  have h4 : p.doubleArg.get f = none := by rw [hp.doubleArg]; rfl
  have h5 : p.fileArg.get f = none := by
    apply hfile
    have : ∀ x ∈ [lit "--counter_poise", lit "--version"], x ∉ fileNames := by decide
    exact this _ hm
  unfold parseArg
  rw [hr]
  simp only [strStage, h1, Res.ok_bind, switchStage, h2, List.drop_zero]
  cases rest with
  | nil => simp [nextIsFlag, intStage, h3, doubleStage, h4, fileStage, h5]
  | cons v r =>
    have hv := hn v r rfl
    have hnf : nextIsFlag p (v :: r) = true := by
      rw [nextIsFlag_names, hp.names]
      simp only [decide_eq_true_eq]
      exact (calcNames_tokens v).2 hv
    rw [hnf]
    simp [intStage, h3, doubleStage, h4, fileStage, h5]

/-- A switch followed by anything that is not a flag: either rejected, or the parser carries on at that token. -/
theorem parseArg_switch_value [Dbl D] (fs : FS) (p : Parser D) (hp : Cfg p) {f t v : Str} (h : (t, f) ∈ switchTokens)
    (rest : List Str) (hfile : ∀ g ∉ fileNames, p.fileArg.get g = none) (hv : v ∉ flagTokens) :
    (v ∉ onWords → v ∉ offWords → parseArg fs p t (v :: rest) = .throw .invalidArgument) ∧
    (v ∈ onWords → parseArg fs p t (v :: rest) = .ok ({ p with strs := p.strs.set f v, ints := p.ints.set f 1 }, 0)) ∧
    (v ∈ offWords → parseArg fs p t (v :: rest) = .ok ({ p with strs := p.strs.set f v, ints := p.ints.set f 0 }, 0)) := by
  have hr : resolve p t = f := by
    rw [resolve_names, hp.names]
    exact resolve_switch _ h
  have hk : ∀ x ∈ switchTokens, x.2 ∈ [lit "--counter_poise", lit "--version"] := by decide
  have hm : f ∈ [lit "--counter_poise", lit "--version"] := hk _ h
  have h1 : p.strArg.get f = none := by
    rw [hp.strArg]
    simp only [List.mem_cons, List.not_mem_nil, or_false] at hm
    rcases hm with rfl | rfl <;> rfl
  have h2 : p.switchArg.get f = some newArgumentSwitch := by
    rw [hp.switchArg]
    simp only [List.mem_cons, List.not_mem_nil, or_false] at hm
    rcases hm with rfl | rfl <;> rfl
  have h2' : p.switchArg.set f newArgumentSwitch = p.switchArg := by
    rw [hp.switchArg]
    simp only [List.mem_cons, List.not_mem_nil, or_false] at hm
    rcases hm with rfl | rfl <;> rfl
  have h3 : p.intArg.get f = none := by
    rw [hp.intArg]
    simp only [List.mem_cons, List.not_mem_nil, or_false] at hm
    rcases hm with rfl | rfl <;> rfl
  have h4 : p.doubleArg.get f = none := by rw [hp.doubleArg]; rfl
  have h5 : p.fileArg.get f = none := by
    apply hfile
    have : ∀ x ∈ [lit "--counter_poise", lit "--version"], x ∉ fileNames := by decide
    exact this _ hm
  have hnf : nextIsFlag p (v :: rest) = false := by
    rw [nextIsFlag_names, hp.names]
    simp only [decide_eq_false_iff_not]
    exact fun hh => hv ((calcNames_tokens v).1 hh)
  obtain ⟨c1, c2, c3⟩ := C53_switch (D := D) fs v
  unfold parseArg
  rw [hr]
  simp only [strStage, h1, Res.ok_bind, switchStage, h2, List.drop_zero, hnf, Bool.not_false, if_true]
  refine ⟨?_, ?_, ?_⟩
  · intro n1 n2
    rw [(c3 n1 n2).1]; rfl
  · intro n1
    rw [(c1 n1).1, (c1 n1).2]
    simp [intStage, h3, doubleStage, h4, fileStage, h5, h2']
  · intro n1
    rw [(c2 n1).1, (c2 n1).2]
    simp [intStage, h3, doubleStage, h4, fileStage, h5, h2']

theorem parseArg_unknown [Dbl D] (fs : FS) (p : Parser D) (hp : Cfg p) {t : Str} (h : t ∉ flagTokens)
    (rest : List Str) (hfile : ∀ g ∉ fileNames, p.fileArg.get g = none) :
    parseArg fs p t rest = .throw .invalidArgument := by
  have hr : resolve p t = t := by
    rw [resolve_names, hp.names]
    exact resolve_unknown h
  have key : ∀ {V : Type} (m : Map V), (∀ k ∈ m.map (·.1), k ∈ flagTokens) → m.get t = none := by
    intro V m hm
    have := Map.get_isSome m t
    cases hg : m.get t with
    | none => rfl
    | some x => rw [hg] at this; exact absurd (hm t (by simpa using this)) h
  have h1 : p.strArg.get t = none := by
    rw [hp.strArg]; apply key
    have : (calcStrArg (D := D)).map (·.1) = (calcStrArg (D := Unit)).map (·.1) := rfl
    rw [this]; decide
  have h2 : p.switchArg.get t = none := by
    rw [hp.switchArg]; apply key
    have : (calcSwitchArg (D := D)).map (·.1) = (calcSwitchArg (D := Unit)).map (·.1) := rfl
    rw [this]; decide
  have h3 : p.intArg.get t = none := by
    rw [hp.intArg]; apply key
    have : (calcIntArg (D := D)).map (·.1) = (calcIntArg (D := Unit)).map (·.1) := rfl
    rw [this]; decide
  have h4 : p.doubleArg.get t = none := by rw [hp.doubleArg]; rfl
  have h5 : p.fileArg.get t = none := by
    apply hfile
    intro hh
    have : ∀ x ∈ fileNames, x ∈ flagTokens := by decide
    exact h (this _ hh)
  unfold parseArg
  rw [hr]
  simp [strStage, h1, switchStage, h2, intStage, h3, doubleStage, h4, fileStage, h5]

/-! ### The state after some assignments -/

def sisOf (fs : FS) (al : List Str) (dir core : Str) : Map (List Str) :=
  sisMap al (al.map (fun e => if fs (dir ++ core ++ e) then lit "true" else lit "false")) (al.map (fun e => core ++ e))
    (al.map (fun _ => dir)) (al.map (fun e => dir ++ core ++ e))

/-- The argument of a file flag after the given values. -/
inductive FileSt (fs : FS) (exts al : List Str) : List Str → ArgObj Str D → Prop
  | none : FileSt fs exts al [] (fileArgWith exts 0 (sis0 al))
  | some {vs v dir core ext} (hp : PathParts v dir core ext) :
      FileSt fs exts al (vs ++ [v]) (fileArgWith exts (if (vs ++ [v]).any fs then 1 else 0) (sisOf fs al dir core))

theorem fileArg_valid (fs : FS) (exts al : List Str) (he : ∀ e ∈ exts, char0 e ≠ '*') (hal : lit "NOT_DEFINED" ∉ al)
    (e : Int) (x y z w : List Str) {v dir core ext : Str} (hp : PathParts v dir core ext) (hf : Fits v) :
    (fileArgWith (D := D) exts e (sisMap al x y z w)).valid fs v =
      if ext ∈ exts then .ok (fileArgWith exts (if fs v then 1 else e) (sisOf fs al dir core)) else .throw .invalidArgument := by
  have h1 : fileExistVT.valid fs v [(lit "FILE_DOES_EXIST", e), (lit "FILE_MUST_EXIST", 0)] =
      .ok [(lit "FILE_DOES_EXIST", if fs v then 1 else e), (lit "FILE_MUST_EXIST", 0)] := by
    show (if fs v = true then Res.ok [(lit "FILE_DOES_EXIST", (1 : Int)), (lit "FILE_MUST_EXIST", 0)]
      else Res.ok [(lit "FILE_DOES_EXIST", e), (lit "FILE_MUST_EXIST", 0)]) = _
    split <;> simp [*]
  obtain ⟨c1, c2⟩ := C54_ext fs [(lit "ALLOWED_FILE_EXT", exts)] exts rfl hp hf
  have hstar : (ext ∈ exts ∨ ∃ t, '*' :: t ∈ exts) ↔ ext ∈ exts := by
    constructor
    · rintro (h | ⟨t, h⟩)
      · exact h
      · exact absurd rfl (he _ h)
    · exact .inl
  rw [hstar] at c1 c2
  by_cases hx : ext ∈ exts
  · rw [if_pos hx]
    have h3 : sisterVT.valid fs v (sisMap al x y z w) = .ok (sisOf fs al dir core) := by
      obtain ⟨g1, g2, g3, -, -⟩ := hp.file hf
      have hflt : al.filter (fun e => e ≠ (lit "NOT_DEFINED")) = al := by
        rw [List.filter_eq_self]; intro a ha
        simp only [ne_eq, decide_not, Bool.not_eq_true', decide_eq_false_iff_not]
        rintro rfl; exact hal ha
      show sisterValid fs v _ = _
      unfold sisterValid
      rw [g2, g1]; simp only [Res.ok_bind]
      rw [g3]; simp only [Res.ok_bind]
      have : getOpt (sisMap al x y z w) (lit "ALLOWED_SISTER_FILE_EXT") = .ok al := rfl
      rw [this]; simp only [Res.ok_bind]
      rw [hflt]
      have e1 : ∀ a b c d : List Str, ((((sisMap al x y z w).set (lit "SISTER_FILE_NAME") a).set (lit "SISTER_FILE_PATH") b).set
        (lit "SISTER_FILE_PATH_NAME") c).set (lit "SISTER_FILE_EXISTS") d = sisMap al d a b c := fun _ _ _ _ => rfl
      rw [e1]
      simp only [sisOf, List.map_map, Function.comp_def, List.append_assoc]
    simp only [ArgObj.valid, fileArgWith, validAll, List.mapM_cons, List.mapM_nil, h1, c1 hx, h3, Res.ok_bind, Res.pure_def]
  · rw [if_neg hx]
    simp only [ArgObj.valid, fileArgWith, validAll, List.mapM_cons, List.mapM_nil, h1, c2 hx, Res.ok_bind, Res.throw_bind, Res.pure_def]

/-- The number a text starts with. -/
def intOf (v : Str) : Int := (strtol v).getD 0

/-- The state of the calc_J parser after reading some assignments. -/
structure After (fs : FS) (as : List Asg) (p : Parser D) : Prop extends Cfg p where
  noFile : ∀ g ∉ fileNames, p.fileArg.get g = none
  pun : ∀ f s, (f, s, Kind.pun) ∈ valueFlags → ∃ a, p.fileArg.get f = some a ∧ FileSt fs punExts punSis (given f as) a
  log : ∀ f s, (f, s, Kind.log) ∈ valueFlags → ∃ a, p.fileArg.get f = some a ∧ FileSt fs logExts logSis (given f as) a
  post : ∀ x ∈ p.fileArg, x.2.post = .ok ()
  fileStr : ∀ f ∈ fileNames, p.strs.get f = (given f as).getLast?
  spin : ∀ f s, (f, s, Kind.spin) ∈ valueFlags → p.strs.get f = some ((given f as).getLast?.getD (lit "Alpha"))
  otype : ∀ f s, (f, s, Kind.otype) ∈ valueFlags → p.strs.get f = some ((given f as).getLast?.getD (lit "HOMO"))
  onum : ∀ f s, (f, s, Kind.onum) ∈ valueFlags → p.ints.get f = some (((given f as).getLast?.map intOf).getD 0)
  switchStr : ∀ f ∈ [lit "--counter_poise", lit "--citation", lit "--version"], p.strs.get f = some (lit "OFF")
  switchInt : ∀ f ∈ [lit "--counter_poise", lit "--citation", lit "--version"],
    p.ints.get f = if turnedOn f as then some 1 else none

theorem After.init [Dbl D] (fs : FS) : After fs [] (calcJ (D := D)) where
  strArg := calcJ_strArg
  switchArg := calcJ_switchArg
  intArg := calcJ_intArg
  doubleArg := calcJ_doubleArg
  names := calcJ_flags
  noFile := by
    intro g hg
    rw [calcJ_fileArg]
    have := Map.get_isSome (calcFileArg (D := D)) g
    have h2 : (calcFileArg (D := D)).map (·.1) = (calcFileArg (D := Unit)).map (·.1) := rfl
    rw [h2] at this
    have h3 : ∀ x ∈ (calcFileArg (D := Unit)).map (·.1), x ∈ fileNames := by decide
    cases hh : (calcFileArg (D := D)).get g with
    | none => rfl
    | some x => rw [hh] at this; exact absurd (h3 g (by simpa using this)) hg
  pun := by
    intro f s h
    rw [calcJ_fileArg]
    have hk : ∀ x ∈ valueFlags, x.2.2 = .pun → x.1 ∈ [lit "--pun_P", lit "--pun_1", lit "--pun_2"] := by decide
    have := hk _ h rfl
    simp only [List.mem_cons, List.not_mem_nil, or_false] at this
    refine ⟨_, ?_, .none⟩
    rcases this with rfl | rfl | rfl <;> rfl
  log := by
    intro f s h
    rw [calcJ_fileArg]
    have hk : ∀ x ∈ valueFlags, x.2.2 = .log → x.1 ∈ [lit "--log_P", lit "--log_1", lit "--log_2"] := by decide
    have := hk _ h rfl
    simp only [List.mem_cons, List.not_mem_nil, or_false] at this
    refine ⟨_, ?_, .none⟩
    rcases this with rfl | rfl | rfl <;> rfl
  post := by
    rw [calcJ_fileArg]
    simp only [calcFileArg, List.mem_cons, List.not_mem_nil, or_false]
    rintro x (rfl | rfl | rfl | rfl | rfl | rfl) <;> rfl
  fileStr := by
    rw [calcJ_strs]
    simp only [fileNames, List.mem_cons, List.not_mem_nil, or_false]
    rintro x (rfl | rfl | rfl | rfl | rfl | rfl) <;> rfl
  spin := by
    intro f s h
    rw [calcJ_strs]
    have hk : ∀ x ∈ valueFlags, x.2.2 = .spin → x.1 ∈ [lit "--spin_P", lit "--spin_1", lit "--spin_2"] := by decide
    have := hk _ h rfl
    simp only [List.mem_cons, List.not_mem_nil, or_false] at this
    rcases this with rfl | rfl | rfl <;> rfl
  otype := by
    intro f s h
    rw [calcJ_strs]
    have hk : ∀ x ∈ valueFlags, x.2.2 = .otype → x.1 ∈ [lit "--orbital_type_1", lit "--orbital_type_2"] := by decide
    have := hk _ h rfl
    simp only [List.mem_cons, List.not_mem_nil, or_false] at this
    rcases this with rfl | rfl <;> rfl
  onum := by
    intro f s h
    rw [calcJ_ints]
    have hk : ∀ x ∈ valueFlags, x.2.2 = .onum → x.1 ∈ [lit "--orbital_num_1", lit "--orbital_num_2"] := by decide
    have := hk _ h rfl
    simp only [List.mem_cons, List.not_mem_nil, or_false] at this
    rcases this with rfl | rfl <;> rfl
  switchStr := by
    rw [calcJ_strs]
    simp only [List.mem_cons, List.not_mem_nil, or_false]
    rintro x (rfl | rfl | rfl) <;> rfl
  switchInt := by
    rw [calcJ_ints]
    simp only [List.mem_cons, List.not_mem_nil, or_false]
    rintro x (rfl | rfl | rfl) <;> rfl

theorem given_append (f : Str) (as bs : List Asg) : given f (as ++ bs) = given f as ++ given f bs := by
  induction as with
  | nil => rfl
  | cons a as ih =>
    cases a with
    | value g k v => simp only [List.cons_append, given, ih]; split <;> simp
    | switch g => simp only [List.cons_append, given, ih]

theorem turnedOn_append (f : Str) (as bs : List Asg) : turnedOn f (as ++ bs) = (turnedOn f as || turnedOn f bs) := by
  induction as with
  | nil => rfl
  | cons a as ih =>
    cases a with
    | value g k v => simp only [List.cons_append, turnedOn, ih]
    | switch g => simp only [List.cons_append, turnedOn, ih, Bool.or_assoc]

theorem given_value (g f v : Str) (k : Kind) (as : List Asg) :
    given g (as ++ [.value f k v]) = if g = f then given f as ++ [v] else given g as := by
  rw [given_append]
  by_cases h : g = f
  · subst h; simp [given]
  · simp [given, h, Ne.symm h]

theorem turnedOn_value (g f v : Str) (k : Kind) (as : List Asg) : turnedOn g (as ++ [.value f k v]) = turnedOn g as := by
  rw [turnedOn_append]; simp [turnedOn]

theorem given_switch (g f : Str) (as : List Asg) : given g (as ++ [.switch f]) = given g as := by
  rw [given_append]; simp [given]

theorem turnedOn_switch (g f : Str) (as : List Asg) : turnedOn g (as ++ [.switch f]) = (turnedOn g as || decide (f = g)) := by
  rw [turnedOn_append]; simp [turnedOn]

theorem kind_unique : ∀ x ∈ valueFlags, ∀ y ∈ valueFlags, x.1 = y.1 → x.2.2 = y.2.2 := by decide
theorem value_not_switch : ∀ x ∈ valueFlags, x.1 ∉ [lit "--counter_poise", lit "--citation", lit "--version"] := by decide
theorem value_file : ∀ x ∈ valueFlags, (x.1 ∈ fileNames ↔ x.2.2 = .pun ∨ x.2.2 = .log) := by decide

theorem After.isFile {fs : FS} {as : List Asg} {p : Parser D} (h : After fs as p) :
    ∀ g ∈ fileNames, (p.fileArg.get g).isSome = true := by
  intro g hg
  have hk : ∀ x ∈ fileNames, (∃ y ∈ valueFlags, y.1 = x ∧ y.2.2 = .pun) ∨ (∃ y ∈ valueFlags, y.1 = x ∧ y.2.2 = .log) := by decide
  rcases hk g hg with ⟨⟨f, s, k⟩, hy, rfl, rfl⟩ | ⟨⟨f, s, k⟩, hy, rfl, rfl⟩
  · obtain ⟨a, ha, -⟩ := h.pun f s hy; simp [ha]
  · obtain ⟨a, ha, -⟩ := h.log f s hy; simp [ha]

theorem FileSt.isSis {fs : FS} {exts al vs : List Str} {a : ArgObj Str D} (h : FileSt fs exts al vs a) :
    ∃ x y z w, a = fileArgWith exts (if vs.any fs then 1 else 0) (sisMap al x y z w) := by
  cases h with
  | none => exact ⟨_, _, _, _, rfl⟩
  | some hp => exact ⟨_, _, _, _, rfl⟩

/-- One more value for a file flag. -/
theorem FileSt.step {fs : FS} {exts al vs : List Str} {a : ArgObj Str D} (h : FileSt fs exts al vs a)
    (he : ∀ e ∈ exts, char0 e ≠ '*') (hal : lit "NOT_DEFINED" ∉ al) {v : Str} (hf : Fits v) :
    ((∃ dir core ext, PathParts v dir core ext ∧ ext ∈ exts) ∧ ∃ a', a.valid fs v = .ok a' ∧ FileSt fs exts al (vs ++ [v]) a') ∨
    ((¬ ∃ dir core ext, PathParts v dir core ext ∧ ext ∈ exts) ∧ a.valid fs v = .throw .invalidArgument) := by
  obtain ⟨x, y, z, w, rfl⟩ := h.isSis
  obtain ⟨dir, core, ext, hp⟩ := PathParts.exists v
  have hv := fileArg_valid (D := D) fs exts al he hal (if vs.any fs then 1 else 0) x y z w hp hf
  by_cases hx : ext ∈ exts
  · rw [if_pos hx] at hv
    refine .inl ⟨⟨dir, core, ext, hp, hx⟩, _, hv, ?_⟩
    have : (if fs v = true then (1 : Int) else if vs.any fs = true then 1 else 0) = if (vs ++ [v]).any fs = true then 1 else 0 := by
      simp only [List.any_append, List.any_cons, List.any_nil, Bool.or_false, Bool.or_eq_true]
      by_cases h1 : fs v = true <;> by_cases h2 : vs.any fs = true <;> simp [h1, h2]
    rw [this]
    exact .some hp
  · rw [if_neg hx] at hv
    refine .inr ⟨?_, hv⟩
    rintro ⟨dir', core', ext', hp', hx'⟩
    have hv' := fileArg_valid (D := D) fs exts al he hal (if vs.any fs then 1 else 0) x y z w hp' hf
    rw [if_pos hx', hv] at hv'
    cases hv'

theorem fileArg_post (exts : List Str) (e : Int) (sis : Map (List Str)) : (fileArgWith (D := D) exts e sis).post = .ok () := rfl

theorem After.value {fs : FS} {as : List Asg} {p : Parser D} (h : After fs as p) {f s v : Str} {k : Kind}
    (hf : (f, s, k) ∈ valueFlags) (hv : Fits v) :
    (ValueOk k v ∧ ∃ q, setVal fs p f k v = .ok q ∧ After fs (as ++ [.value f k v]) q) ∨
    (¬ ValueOk k v ∧ ∃ e, setVal fs p f k v = .throw e ∧ BadValue k v e) := by
  have hsw := value_not_switch _ hf
  -- a string value for a non-file flag
  have hstr : ∀ (dflt : Str), k = .spin ∨ k = .otype →
      After fs (as ++ [.value f k v]) { p with strs := p.strs.set f v } := by
    intro dflt hk
    have hnf : f ∉ fileNames := by
      intro hh
      have := (value_file _ hf).1 hh
      simp only at this
      rcases hk with rfl | rfl <;> rcases this with h | h <;> cases h
    refine ⟨⟨h.strArg, h.switchArg, h.intArg, h.doubleArg, h.names⟩, h.noFile, ?_, ?_, h.post, ?_, ?_, ?_, ?_, ?_, ?_⟩
    · intro g s' hg
      have hne : g ≠ f := by
        rintro rfl
        have := kind_unique _ hf _ hg rfl
        simp only at this
        rcases hk with rfl | rfl <;> cases this
      rw [given_value, if_neg hne]; exact h.pun g s' hg
    · intro g s' hg
      have hne : g ≠ f := by
        rintro rfl
        have := kind_unique _ hf _ hg rfl
        simp only at this
        rcases hk with rfl | rfl <;> cases this
      rw [given_value, if_neg hne]; exact h.log g s' hg
    · intro g hg
      have hne : g ≠ f := by rintro rfl; exact hnf hg
      rw [given_value, if_neg hne, Map.get_set_ne _ hne]; exact h.fileStr g hg
    · intro g s' hg
      rw [given_value, Map.get_set]
      by_cases hne : g = f
      · rw [if_pos hne, if_pos hne]; simp
      · rw [if_neg hne, if_neg hne]; exact h.spin g s' hg
    · intro g s' hg
      rw [given_value, Map.get_set]
      by_cases hne : g = f
      · rw [if_pos hne, if_pos hne]; simp
      · rw [if_neg hne, if_neg hne]; exact h.otype g s' hg
    · intro g s' hg
      have hne : g ≠ f := by
        rintro rfl
        have := kind_unique _ hf _ hg rfl
        simp only at this
        rcases hk with rfl | rfl <;> cases this
      rw [given_value, if_neg hne]; exact h.onum g s' hg
    · intro g hg
      have hne : g ≠ f := by rintro rfl; exact hsw hg
      rw [Map.get_set_ne _ hne]; exact h.switchStr g hg
    · intro g hg
      rw [turnedOn_value]; exact h.switchInt g hg
  -- a file
  have hfile : ∀ a', (k = .pun ∨ k = .log) → a'.post = .ok () →
      (k = .pun → FileSt fs punExts punSis (given f as ++ [v]) a') →
      (k = .log → FileSt fs logExts logSis (given f as ++ [v]) a') →
      After fs (as ++ [.value f k v]) { p with fileArg := p.fileArg.set f a', strs := p.strs.set f v } := by
    intro a' hk hpost h1 h2
    have hfn : f ∈ fileNames := (value_file _ hf).2 hk
    refine ⟨⟨h.strArg, h.switchArg, h.intArg, h.doubleArg, h.names⟩, ?_, ?_, ?_, ?_, ?_, ?_, ?_, ?_, ?_, ?_⟩
    · intro g hg
      have hne : g ≠ f := by rintro rfl; exact hg hfn
      rw [Map.get_set_ne _ hne]; exact h.noFile g hg
    · intro g s' hg
      rw [given_value, Map.get_set]
      by_cases hne : g = f
      · rw [if_pos hne, if_pos hne]
        subst hne
        exact ⟨a', rfl, h1 (kind_unique _ hf _ hg rfl)⟩
      · rw [if_neg hne, if_neg hne]; exact h.pun g s' hg
    · intro g s' hg
      rw [given_value, Map.get_set]
      by_cases hne : g = f
      · rw [if_pos hne, if_pos hne]
        subst hne
        exact ⟨a', rfl, h2 (kind_unique _ hf _ hg rfl)⟩
      · rw [if_neg hne, if_neg hne]; exact h.log g s' hg
    · intro x hx
      rcases Map.mem_set hx with rfl | hx
      · exact hpost
      · exact h.post x hx
    · intro g hg
      rw [given_value, Map.get_set]
      by_cases hne : g = f
      · rw [if_pos hne, if_pos hne]; simp
      · rw [if_neg hne, if_neg hne]; exact h.fileStr g hg
    · intro g s' hg
      have hne : g ≠ f := by
        rintro rfl
        have := kind_unique _ hf _ hg rfl
        simp only at this
        rcases hk with rfl | rfl <;> cases this
      rw [given_value, if_neg hne, Map.get_set_ne _ hne]; exact h.spin g s' hg
    · intro g s' hg
      have hne : g ≠ f := by
        rintro rfl
        have := kind_unique _ hf _ hg rfl
        simp only at this
        rcases hk with rfl | rfl <;> cases this
      rw [given_value, if_neg hne, Map.get_set_ne _ hne]; exact h.otype g s' hg
    · intro g s' hg
      have hne : g ≠ f := by
        rintro rfl
        have := kind_unique _ hf _ hg rfl
        simp only at this
        rcases hk with rfl | rfl <;> cases this
      rw [given_value, if_neg hne]; exact h.onum g s' hg
    · intro g hg
      have hne : g ≠ f := by rintro rfl; exact hsw hg
      rw [Map.get_set_ne _ hne]; exact h.switchStr g hg
    · intro g hg
      rw [turnedOn_value]; exact h.switchInt g hg
  cases k with
  | spin =>
    by_cases hx : v = lit "Alpha" ∨ v = lit "Beta"
    · exact .inl ⟨hx, _, by simp only [setVal, if_pos hx], hstr (lit "Alpha") (.inl rfl)⟩
    · exact .inr ⟨hx, _, by simp only [setVal, if_neg hx], .wrong hx (fun h => by cases h)⟩
  | otype =>
    by_cases hx : v = lit "HOMO" ∨ v = lit "LUMO"
    · exact .inl ⟨hx, _, by simp only [setVal, if_pos hx], hstr (lit "HOMO") (.inr rfl)⟩
    · exact .inr ⟨hx, _, by simp only [setVal, if_neg hx], .wrong hx (fun h => by cases h)⟩
  | onum =>
    obtain ⟨c1, c2, c3⟩ := C67_stoi v
    by_cases hex : ∃ n, IntText v n
    · obtain ⟨n, hn⟩ := hex
      by_cases hr : -2 ^ 31 ≤ n ∧ n < 2 ^ 31
      · have hs := c1 n hn hr
        refine .inl ⟨⟨n, hn, hr⟩, _, by simp only [setVal, hs, Res.ok_bind]; rfl, ?_⟩
        have hio : intOf v = n := by
          unfold stoi at hs
          unfold intOf
          cases hst : strtol v with
          | none => rw [hst] at hs; cases hs
          | some m =>
            rw [hst] at hs; simp only at hs
            split at hs
            · cases hs
            · cases hs; rfl
        refine ⟨⟨h.strArg, h.switchArg, h.intArg, h.doubleArg, h.names⟩, h.noFile, ?_, ?_, h.post, ?_, ?_, ?_, ?_, ?_, ?_⟩
        · intro g s' hg
          have hne : g ≠ f := by rintro rfl; cases kind_unique _ hf _ hg rfl
          rw [given_value, if_neg hne]; exact h.pun g s' hg
        · intro g s' hg
          have hne : g ≠ f := by rintro rfl; cases kind_unique _ hf _ hg rfl
          rw [given_value, if_neg hne]; exact h.log g s' hg
        · intro g hg
          have hne : g ≠ f := by
            rintro rfl
            have := (value_file _ hf).1 hg
            rcases this with h | h <;> cases h
          rw [given_value, if_neg hne]; exact h.fileStr g hg
        · intro g s' hg
          have hne : g ≠ f := by rintro rfl; cases kind_unique _ hf _ hg rfl
          rw [given_value, if_neg hne]; exact h.spin g s' hg
        · intro g s' hg
          have hne : g ≠ f := by rintro rfl; cases kind_unique _ hf _ hg rfl
          rw [given_value, if_neg hne]; exact h.otype g s' hg
        · intro g s' hg
          rw [given_value, Map.get_set]
          by_cases hne : g = f
          · rw [if_pos hne, if_pos hne]; simp [hio]
          · rw [if_neg hne, if_neg hne]; exact h.onum g s' hg
        · exact h.switchStr
        · intro g hg
          have hne : g ≠ f := by rintro rfl; exact hsw hg
          rw [turnedOn_value, Map.get_set_ne _ hne]; exact h.switchInt g hg
      · have hs := c2 n hn hr
        refine .inr ⟨?_, _, by simp only [setVal, hs, Res.throw_bind], .large hn hr⟩
        rintro ⟨m, hm, hmr⟩
        rw [c1 m hm hmr] at hs; cases hs
    · have hs := c3 hex
      have hno : ¬ ValueOk .onum v := by
        rintro ⟨m, hm, -⟩
        exact hex ⟨m, hm⟩
      exact .inr ⟨hno, _, by simp only [setVal, hs, Res.throw_bind], .wrong hno (fun _ => hex)⟩
  | pun =>
    obtain ⟨a, ha, hst⟩ := h.pun f s hf
    rcases hst.step (by decide) (by decide) hv with ⟨⟨d, c, e, hp, hx⟩, a', hval, hst'⟩ | ⟨hno, hval⟩
    · refine .inl ⟨⟨d, c, e, hp, ?_⟩, _, by simp only [setVal, ha, hval, Res.ok_bind]; rfl, ?_⟩
      · simp only [punExts, List.mem_cons, List.not_mem_nil, or_false] at hx ⊢
        rcases hx with h | h | h <;> simp [h]
      · refine hfile a' (.inl rfl) ?_ (fun _ => hst') (fun h => by cases h)
        obtain ⟨x, y, z, w, rfl⟩ := hst'.isSis; rfl
    · have hbad : ¬ ValueOk .pun v := by
        rintro ⟨d, c, e, hp, hx⟩
        refine hno ⟨d, c, e, hp, ?_⟩
        simp only [punExts, List.mem_cons, List.not_mem_nil, or_false] at hx ⊢
        rcases hx with h | h | h <;> simp [h]
      exact .inr ⟨hbad, _, by simp only [setVal, ha, hval, Res.throw_bind], .wrong hbad (fun h => by cases h)⟩
  | log =>
    obtain ⟨a, ha, hst⟩ := h.log f s hf
    rcases hst.step (by decide) (by decide) hv with ⟨⟨d, c, e, hp, hx⟩, a', hval, hst'⟩ | ⟨hno, hval⟩
    · refine .inl ⟨⟨d, c, e, hp, ?_⟩, _, by simp only [setVal, ha, hval, Res.ok_bind]; rfl, ?_⟩
      · simpa [logExts] using hx
      · refine hfile a' (.inr rfl) ?_ (fun h => by cases h) (fun _ => hst')
        obtain ⟨x, y, z, w, rfl⟩ := hst'.isSis; rfl
    · have hbad : ¬ ValueOk .log v := by
        rintro ⟨d, c, e, hp, hx⟩
        exact hno ⟨d, c, e, hp, by simp [logExts, hx]⟩
      exact .inr ⟨hbad, _, by simp only [setVal, ha, hval, Res.throw_bind], .wrong hbad (fun h => by cases h)⟩

theorem After.switch {fs : FS} {as : List Asg} {p : Parser D} (h : After fs as p) {t f : Str} (hf : (t, f) ∈ switchTokens) :
    After fs (as ++ [.switch f]) { p with ints := p.ints.set f 1 } := by
  have hk : ∀ x ∈ switchTokens, x.2 ∈ [lit "--counter_poise", lit "--version"] := by decide
  have hm : f ∈ [lit "--counter_poise", lit "--version"] := hk _ hf
  refine ⟨⟨h.strArg, h.switchArg, h.intArg, h.doubleArg, h.names⟩, h.noFile, ?_, ?_, h.post, ?_, ?_, ?_, ?_, h.switchStr, ?_⟩
  · intro g s; rw [given_switch]; exact h.pun g s
  · intro g s; rw [given_switch]; exact h.log g s
  · intro g; rw [given_switch]; exact h.fileStr g
  · intro g s; rw [given_switch]; exact h.spin g s
  · intro g s; rw [given_switch]; exact h.otype g s
  · intro g s hg
    have hne : g ≠ f := by
      rintro rfl
      have := value_not_switch _ hg
      simp only [List.mem_cons, List.not_mem_nil, or_false, not_or] at hm this
      rcases hm with h | h
      · exact this.1 h
      · exact this.2.2 h
    rw [given_switch, Map.get_set_ne _ hne]; exact h.onum g s hg
  · intro g hg
    rw [turnedOn_switch, Map.get_set]
    by_cases hne : g = f
    · subst hne; simp
    · rw [if_neg hne]
      have : f ≠ g := Ne.symm hne
      simp only [this, decide_false, Bool.or_false]
      exact h.switchInt g hg

end
end Verif.Args
