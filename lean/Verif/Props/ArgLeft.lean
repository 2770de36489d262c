import Verif.Props.ArgLeftResult
import Verif.Spec.ArgLeft
import Verif.Props.Refuses
/-
Property C134: what a parser holds after a command line it refused.
-/
namespace Verif.Args
open Strings

section
variable {D : Type} [Dbl D]

/-! ### What an argument is left like -/

omit [Dbl D] in
theorem validL_throw {S : Type} {fs : FS} {val : S} {a : ArgObj S D} {e : Exn} (h : a.valid fs val = .throw e) : (a.validL fs val).2 = .throw e := by
  rw [← ArgObj.validL_outcome] at h
  unfold Left.outcome at h
  cases h2 : (a.validL fs val).2 with
  | throw e' => rw [h2] at h; cases h; rfl
  | ok u => rw [h2] at h; cases h
  | exit c => rw [h2] at h; cases h
  | ub => rw [h2] at h; cases h
  | diverge => rw [h2] at h; cases h

omit [Dbl D] in
theorem validAllL_nil {S T : Type} (fs : FS) (v : S) : validAllL fs v ([] : List (PropObj S T)) = ([], .ok ()) := rfl

omit [Dbl D] in
theorem validAllL_one {S T : Type} (fs : FS) (v : S) (vt : VTable S T) (o : Map T) : validAllL fs v [⟨vt, o⟩] =
    match vt.valid fs v o with
    | .ok o' => ([⟨vt, o'⟩], .ok ())
    | r => ([⟨vt, o⟩], void r) := rfl

omit [Dbl D] in
/-- Properties that change none of their options. -/
theorem validAllL_keep {S T : Type} {fs : FS} {v : S} {vt : VTable S T} {o : Map T} (h : ∀ o', vt.valid fs v o = .ok o' → o' = o) :
    (validAllL fs v [⟨vt, o⟩]).1 = [⟨vt, o⟩] := by
  rw [validAllL_one]
  cases hv : vt.valid fs v o with
  | ok o' => rw [h o' hv]
  | _ => rfl

theorem int_left {a : ArgObj Int D} (h : Reached newArgumentInt a) (fs : FS) (n : Int) : (a.validL fs n).1 = a := by
  obtain ⟨o, lo, hi, rfl, e1, e2⟩ := intForm h
  have k : ∀ o', intVT.valid fs n o = .ok o' → o' = o := by
    intro o' hv
    change intValid fs n o = _ at hv
    unfold intValid at hv
    rw [getOpt_some e1, Res.ok_bind] at hv
    split at hv
    · cases hv
    · rw [getOpt_some e2, Res.ok_bind] at hv
      split at hv <;> cases hv
      rfl
  unfold ArgObj.validL
  simp only [validAllL_keep k, validAllL_nil, Left.andThen]
  cases (validAllL fs n [⟨intVT, o⟩]).2 <;> rfl

theorem double_left {a : ArgObj D D} (h : Reached newArgumentDouble a) (fs : FS) (n : D) : (a.validL fs n).1 = a := by
  obtain ⟨o, lo, hi, rfl, e1, e2⟩ := doubleForm h
  have k : ∀ o', doubleVT.valid fs n o = .ok o' → o' = o := by
    intro o' hv
    change doubleValid fs n o = _ at hv
    unfold doubleValid at hv
    rw [getOpt_some e1, Res.ok_bind] at hv
    split at hv
    · cases hv
    · rw [getOpt_some e2, Res.ok_bind] at hv
      split at hv <;> cases hv
      rfl
  unfold ArgObj.validL
  simp only [validAllL_keep k, validAllL_nil, Left.andThen]
  cases (validAllL fs n [⟨doubleVT, o⟩]).2 <;> rfl

theorem switch_left {a : ArgObj Str D} (h : Reached newArgumentSwitch a) (fs : FS) (v : Str) : (a.validL fs v).1 = a := by
  obtain ⟨o, x, rfl, e1⟩ := switchForm h
  have k : ∀ o', switchVT.valid fs v o = .ok o' → o' = o := by
    intro o' hv
    change switchValid fs v o = _ at hv
    unfold switchValid at hv
    split at hv <;> cases hv
    rfl
  unfold ArgObj.validL
  simp only [validAllL_keep k, validAllL_nil, Left.andThen]
  cases (validAllL fs v [⟨switchVT, o⟩]).2 <;> rfl

theorem str_left {a : ArgObj Str D} (h : Reached newArgumentString a) (fs : FS) (v : Str) : (a.validL fs v).1 = a := by
  obtain ⟨o, o2, lo, hi, en, cs, rfl, e1, e2, e3, e4⟩ := strForm h
  have k : ∀ o', stringVT.valid fs v o = .ok o' → o' = o := by
    intro o' hv
    change stringValid fs v o = _ at hv
    unfold stringValid at hv
    rw [getOpt_some e2, Res.ok_bind] at hv
    split at hv
    · cases hv
    · rw [getOpt_some e1, Res.ok_bind] at hv
      split at hv <;> cases hv
      rfl
  have k2 : ∀ o', choiceVT.valid fs v o2 = .ok o' → o' = o2 := by
    intro o' hv
    change choiceValid fs v o2 = _ at hv
    unfold choiceValid at hv
    rw [getOpt_some e3, Res.ok_bind] at hv
    obtain ⟨b, -, hv⟩ := Res.bind_eq_ok.1 hv
    split at hv
    · rw [getOpt_some e4, Res.ok_bind] at hv
      split at hv <;> cases hv
      rfl
    · cases hv; rfl
  unfold ArgObj.validL
  simp only [validAllL_keep k, validAllL_keep k2, validAllL_nil, Left.andThen]
  cases (validAllL fs v [⟨stringVT, o⟩]).2 <;> cases (validAllL fs v [⟨choiceVT, o2⟩]).2 <;> rfl

/-- A file argument that refused a path: it remembers whether the path exists; its other options are as before. -/
theorem file_left {a : ArgObj Str D} (h : Reached newArgumentFile a) (fs : FS) (v : Str) (hf : Fits v) {e : Exn} (hv : a.valid fs v = .throw e) :
    ∃ o, a.ints = [⟨fileExistVT, o⟩] ∧
      (a.validL fs v).1 = { a with ints := [⟨fileExistVT, if fs v = true then o.set (lit "FILE_DOES_EXIST") 1 else o⟩] } := by
  obtain ⟨o, o2, o3, m, d, exts, sis, rfl, e1, e2, e3, e4⟩ := fileForm h
  refine ⟨o, rfl, ?_⟩
  obtain ⟨dir, core, ext, hp⟩ := PathParts.exists v
  have h1 : fileExistVT.valid fs v o = if m ≠ 0 → fs v = true then .ok (if fs v = true then o.set (lit "FILE_DOES_EXIST") 1 else o) else .throw .invalidArgument := by
    show fileExistValid fs v o = _
    unfold fileExistValid
    rw [getOpt_some e1]
    simp only [Res.ok_bind]
    by_cases h1 : m = 0 <;> cases h2 : fs v <;> simp [h1]
  have hs : ∃ o3', sisterVT.valid fs v o3 = .ok o3' := by
    obtain ⟨h1, h2, h3, -, -⟩ := hp.file hf
    show ∃ o3', sisterValid fs v o3 = .ok o3'
    unfold sisterValid
    rw [h2, h1]; simp only [Res.ok_bind]
    rw [h3]; simp only [Res.ok_bind]
    rw [getOpt_some e4]; simp only [Res.ok_bind]
    exact ⟨_, rfl⟩
  obtain ⟨o3', hs⟩ := hs
  obtain ⟨x1, x2⟩ := C54_ext fs o2 exts (getOpt_some e3) hp hf
  by_cases c : m ≠ 0 → fs v = true
  · rw [if_pos c] at h1
    by_cases c2 : ext ∈ exts ∨ ∃ t, '*' :: t ∈ exts
    · exfalso
      unfold ArgObj.valid at hv
      dsimp only at hv
      rw [validAll_one, validAll_one, validAll_one, h1, hs, x1 c2] at hv
      cases hv
    · unfold ArgObj.validL
      dsimp only
      rw [validAllL_one, h1]
      simp only [validAllL_nil, Left.andThen]
      rw [validAllL_one, x2 c2]
      rfl
  · rw [if_neg c] at h1
    have hf' : ¬ fs v = true := fun h => c fun _ => h
    unfold ArgObj.validL
    dsimp only
    rw [validAllL_one, h1, if_neg hf']
    rfl

/-! ### What the parser is left like at a mistake -/

/-- The parser after a mistake. -/
structure Upset (fs : FS) (p : Parser D) (tried : List (Str × Option Str)) (word : Option (Str × Str)) (q : Parser D) : Prop where
  flags : q.flags = p.flags
  sizes : q.sizes = p.sizes
  doubles : q.doubles = p.doubles
  strArg : ∀ g, q.strArg.get g = p.strArg.get g
  switchArg : ∀ g, q.switchArg.get g = p.switchArg.get g
  intArg : ∀ g, q.intArg.get g = p.intArg.get g
  doubleArg : ∀ g, q.doubleArg.get g = p.doubleArg.get g
  ints : ∀ g, (∀ u, word ≠ some (g, u)) → q.ints.get g = p.ints.get g
  strs : ∀ g, (∀ u, word ≠ some (g, u)) → q.strs.get g = p.strs.get g
  word : ∀ f u, word = some (f, u) → HasArg p f .switch ∧ q.strs.get f = some u ∧
    q.ints.get f = some (if u ∈ [(lit "ON"), (lit "TRUE"), (lit "1")] then 1 else 0)
  files : ∀ g, (p.fileArg.get g = none ∧ q.fileArg.get g = none) ∨ ∃ a, p.fileArg.get g = some a ∧
    (((∀ v, (g, some v) ∉ tried) ∧ q.fileArg.get g = some a) ∨ ∃ v o, tried = [(g, some v)] ∧ a.ints = [⟨fileExistVT, o⟩] ∧
      q.fileArg.get g = some { a with ints := [⟨fileExistVT, if fs v = true then o.set (lit "FILE_DOES_EXIST") 1 else o⟩] })
  ok : ArgsOk p → ArgsOk q

theorem Upset.same (fs : FS) (p : Parser D) : Upset fs p [] none p := by
  refine ⟨rfl, rfl, rfl, fun _ => rfl, fun _ => rfl, fun _ => rfl, fun _ => rfl, fun _ _ => rfl, fun _ _ => rfl, (fun f u h => by cases h), fun g => ?_, id⟩
  cases h : p.fileArg.get g with
  | none => exact .inl ⟨rfl, rfl⟩
  | some a => exact .inr ⟨a, rfl, .inl ⟨(fun v h => by cases h), rfl⟩⟩

section
variable {fs : FS} {p : Parser D} {t : Str} (o : Orderly p)
include o

theorem leftArg_nil {k : ArgKind} (h : HasArg p (resolve p t) k) (hk : k ≠ .switch) : parseArgL fs p t [] = (⟨p, 0, true⟩, .throw .runtimeError) := by
  have no : ∀ {k'}, k ≠ k' → ¬ HasArg p (resolve p t) k' := fun n b => n (o.one _ _ _ h b)
  unfold parseArgL
  generalize resolve p t = f at *
  cases k with
  | switch => exact absurd rfl hk
  | str =>
    obtain ⟨a, h⟩ := Option.ne_none_iff_exists'.1 h
    simp only [strStageL, h, List.drop_nil, Left.andThen]
  | int =>
    obtain ⟨a, h⟩ := Option.ne_none_iff_exists'.1 h
    have n1 : p.strArg.get f = none := not_not.1 (no (k' := .str) (by decide))
    have n2 : p.switchArg.get f = none := not_not.1 (no (k' := .switch) (by decide))
    simp only [strStageL, n1, switchStageL, n2, intStageL, h, List.drop_nil, Left.andThen]
  | double =>
    obtain ⟨a, h⟩ := Option.ne_none_iff_exists'.1 h
    have n1 : p.strArg.get f = none := not_not.1 (no (k' := .str) (by decide))
    have n2 : p.switchArg.get f = none := not_not.1 (no (k' := .switch) (by decide))
    have n3 : p.intArg.get f = none := not_not.1 (no (k' := .int) (by decide))
    simp only [strStageL, n1, switchStageL, n2, intStageL, n3, doubleStageL, h, List.drop_nil, Left.andThen]
  | file =>
    obtain ⟨a, h⟩ := Option.ne_none_iff_exists'.1 h
    have n1 : p.strArg.get f = none := not_not.1 (no (k' := .str) (by decide))
    have n2 : p.switchArg.get f = none := not_not.1 (no (k' := .switch) (by decide))
    have n3 : p.intArg.get f = none := not_not.1 (no (k' := .int) (by decide))
    have n4 : p.doubleArg.get f = none := not_not.1 (no (k' := .double) (by decide))
    simp only [strStageL, n1, switchStageL, n2, intStageL, n3, doubleStageL, n4, fileStageL, h, List.drop_nil, Left.andThen]

omit o in
theorem leftArg_str {a : ArgObj Str D} (h : p.strArg.get (resolve p t) = some a) {v : Str} (ts : List Str) {e : Exn} (hv : a.valid fs v = .throw e) :
    parseArgL fs p t (v :: ts) = (⟨{ p with strArg := p.strArg.set (resolve p t) (a.validL fs v).1 }, 0, true⟩, .throw e) := by
  unfold parseArgL
  generalize resolve p t = f at *
  simp only [strStageL, h, List.drop_zero, Left.andThen, validL_throw hv]

theorem leftArg_int {a : ArgObj Int D} (h : p.intArg.get (resolve p t) = some a) {v : Str} (ts : List Str) {e : Exn} :
    (stoi v = .throw e → parseArgL fs p t (v :: ts) = (⟨p, 0, true⟩, .throw e)) ∧
    ∀ n, stoi v = .ok n → a.valid fs n = .throw e →
      parseArgL fs p t (v :: ts) = (⟨{ p with intArg := p.intArg.set (resolve p t) (a.validL fs n).1 }, 0, true⟩, .throw e) := by
  have hk : HasArg p (resolve p t) .int := by simp [HasArg, h]
  have no : ∀ {k'}, ArgKind.int ≠ k' → ¬ HasArg p (resolve p t) k' := fun n b => n (o.one _ _ _ hk b)
  unfold parseArgL
  generalize resolve p t = f at *
  have n1 : p.strArg.get f = none := not_not.1 (no (k' := .str) (by decide))
  have n2 : p.switchArg.get f = none := not_not.1 (no (k' := .switch) (by decide))
  refine ⟨fun h1 => ?_, fun n h1 h2 => ?_⟩
  · simp only [strStageL, n1, switchStageL, n2, intStageL, h, List.drop_zero, Left.andThen, h1, void, Res.throw_bind]
  · simp only [strStageL, n1, switchStageL, n2, intStageL, h, List.drop_zero, Left.andThen, h1, validL_throw h2]

theorem leftArg_double {a : ArgObj D D} (h : p.doubleArg.get (resolve p t) = some a) {v : Str} (ts : List Str) {e : Exn} :
    ((Dbl.stod v : Res D) = .throw e → parseArgL fs p t (v :: ts) = (⟨p, 0, true⟩, .throw e)) ∧
    ∀ n, Dbl.stod v = .ok n → a.valid fs n = .throw e →
      parseArgL fs p t (v :: ts) = (⟨{ p with doubleArg := p.doubleArg.set (resolve p t) (a.validL fs n).1 }, 0, true⟩, .throw e) := by
  have hk : HasArg p (resolve p t) .double := by simp [HasArg, h]
  have no : ∀ {k'}, ArgKind.double ≠ k' → ¬ HasArg p (resolve p t) k' := fun n b => n (o.one _ _ _ hk b)
  unfold parseArgL
  generalize resolve p t = f at *
  have n1 : p.strArg.get f = none := not_not.1 (no (k' := .str) (by decide))
  have n2 : p.switchArg.get f = none := not_not.1 (no (k' := .switch) (by decide))
  have n3 : p.intArg.get f = none := not_not.1 (no (k' := .int) (by decide))
  refine ⟨fun h1 => ?_, fun n h1 h2 => ?_⟩
  · simp only [strStageL, n1, switchStageL, n2, intStageL, n3, doubleStageL, h, List.drop_zero, Left.andThen, h1, void, Res.throw_bind]
  · simp only [strStageL, n1, switchStageL, n2, intStageL, n3, doubleStageL, h, List.drop_zero, Left.andThen, h1, validL_throw h2]

theorem leftArg_file {a : ArgObj Str D} (h : p.fileArg.get (resolve p t) = some a) {v : Str} (ts : List Str) {e : Exn} (hv : a.valid fs v = .throw e) :
    parseArgL fs p t (v :: ts) = (⟨{ p with fileArg := p.fileArg.set (resolve p t) (a.validL fs v).1 }, 0, true⟩, .throw e) := by
  have hk : HasArg p (resolve p t) .file := by simp [HasArg, h]
  have no : ∀ {k'}, ArgKind.file ≠ k' → ¬ HasArg p (resolve p t) k' := fun n b => n (o.one _ _ _ hk b)
  unfold parseArgL
  generalize resolve p t = f at *
  have n1 : p.strArg.get f = none := not_not.1 (no (k' := .str) (by decide))
  have n2 : p.switchArg.get f = none := not_not.1 (no (k' := .switch) (by decide))
  have n3 : p.intArg.get f = none := not_not.1 (no (k' := .int) (by decide))
  have n4 : p.doubleArg.get f = none := not_not.1 (no (k' := .double) (by decide))
  simp only [strStageL, n1, switchStageL, n2, intStageL, n3, doubleStageL, n4, fileStageL, h, List.drop_zero, Left.andThen, validL_throw hv]

theorem leftArg_switch {a : ArgObj Str D} (h : p.switchArg.get (resolve p t) = some a) {v : Str} (ts : List Str) {e : Exn}
    (hn : nextIsFlag p (v :: ts) = false) (hv : a.valid fs v = .throw e) :
    parseArgL fs p t (v :: ts) = (⟨{ p with switchArg := p.switchArg.set (resolve p t) (a.validL fs v).1 }, 0, true⟩, .throw e) := by
  have hk : HasArg p (resolve p t) .switch := by simp [HasArg, h]
  have no : ∀ {k'}, ArgKind.switch ≠ k' → ¬ HasArg p (resolve p t) k' := fun n b => n (o.one _ _ _ hk b)
  unfold parseArgL
  generalize resolve p t = f at *
  have n1 : p.strArg.get f = none := not_not.1 (no (k' := .str) (by decide))
  simp only [strStageL, n1, switchStageL, h, List.drop_zero, Left.andThen, hn, Bool.not_false, if_true, validL_throw hv]

omit o in
theorem leftArg_none (rest : List Str) (h : ∀ k, ¬ HasArg p (resolve p t) k) : parseArgL fs p t rest = (⟨p, 0, true⟩, .throw .invalidArgument) := by
  unfold parseArgL
  generalize resolve p t = f at *
  have n0 : p.strArg.get f = none := not_not.1 (h .str)
  have n1 : p.switchArg.get f = none := not_not.1 (h .switch)
  have n2 : p.intArg.get f = none := not_not.1 (h .int)
  have n3 : p.doubleArg.get f = none := not_not.1 (h .double)
  have n4 : p.fileArg.get f = none := not_not.1 (h .file)
  simp only [strStageL, switchStageL, intStageL, doubleStageL, fileStageL, n0, n1, n2, n3, n4, Left.andThen, if_true]

end

theorem loopL_flag (fs : FS) (size allowed : Nat) (p : Parser D) {t : Str} (hi : t ∉ infoTokens) (hv : t ∉ versionTokens) (ts : List Str) :
    parseLoopL fs size 0 allowed p (t :: ts) =
      match (parseArgL fs p t ts).2 with
      | .ok _ => parseLoopL fs size (parseArgL fs p t ts).1.used allowed (parseArgL fs p t ts).1.p ts
      | r => ((parseArgL fs p t ts).1.p, r) := by
  simp only [infoTokens, versionTokens, List.mem_cons, List.not_mem_nil, or_false, not_or] at hi hv
  conv => lhs; unfold parseLoopL
  rw [if_neg (by rintro (e | e); exacts [hi.1 e, hi.2.1 e]), if_neg (by rintro (e | e); exacts [hv.1 e, hv.2 e]),
    if_neg (by rintro (e | e); exacts [hi.2.2.1 e, hi.2.2.2 e])]
  cases (parseArgL fs p t ts).2 <;> rfl

theorem loopL_throw {fs : FS} {size allowed : Nat} {p : Parser D} {t : Str} (hi : t ∉ infoTokens) (hv : t ∉ versionTokens) {ts : List Str}
    {s : ArgState D} {e : Exn} (h : parseArgL fs p t ts = (s, .throw e)) : parseLoopL fs size 0 allowed p (t :: ts) = (s.p, .throw e) := by
  rw [loopL_flag fs size allowed p hi hv, h]

/-- A step that returns is that of `parseArg`. -/
theorem parseArgL_ok {fs : FS} {p q : Parser D} {t : Str} {ts : List Str} {n : Nat} (h : parseArg fs p t ts = .ok (q, n)) :
    (parseArgL fs p t ts).2 = .ok () ∧ (parseArgL fs p t ts).1.p = q ∧ (parseArgL fs p t ts).1.used = n := by
  rw [← parseArgL_outcome] at h
  unfold Left.outcome at h
  cases h2 : (parseArgL fs p t ts).2 with
  | ok u => rw [h2] at h; cases h; exact ⟨rfl, rfl, rfl⟩
  | throw e' => rw [h2] at h; cases h
  | exit c => rw [h2] at h; cases h
  | ub => rw [h2] at h; cases h
  | diverge => rw [h2] at h; cases h

theorem loopL_ok {fs : FS} {size allowed : Nat} {p q : Parser D} {t : Str} (hi : t ∉ infoTokens) (hv : t ∉ versionTokens) {ts : List Str}
    {n : Nat} (h : parseArg fs p t ts = .ok (q, n)) : parseLoopL fs size 0 allowed p (t :: ts) = parseLoopL fs size n allowed q ts := by
  obtain ⟨h1, h2, h3⟩ := parseArgL_ok h
  rw [loopL_flag fs size allowed p hi hv, h1, h2, h3]

/-- Only the arguments of one flag are set, to what they were. -/
theorem Upset.str {fs : FS} {p : Parser D} {f : Str} {a : ArgObj Str D} (h : p.strArg.get f = some a) (hk : p.fileArg.get f = none) (w : Option Str) :
    Upset fs p [(f, w)] none { p with strArg := p.strArg.set f a } := by
  refine ⟨rfl, rfl, rfl, fun g => get_set_same h g, fun _ => rfl, fun _ => rfl, fun _ => rfl, fun _ _ => rfl, fun _ _ => rfl, (fun f u h => by cases h), fun g => ?_,
    fun ok => ⟨?_, ok.switches, ok.ints, ok.doubles, ok.files⟩⟩
  · cases hg : p.fileArg.get g with
    | none => exact .inl ⟨rfl, rfl⟩
    | some b =>
      refine .inr ⟨b, rfl, .inl ⟨fun v hv => ?_, rfl⟩⟩
      simp only [List.mem_singleton, Prod.mk.injEq] at hv
      rw [hv.1, hk] at hg; cases hg
  · exact ok.strs.set f (ok.strs f a h)

theorem Upset.switch {fs : FS} {p : Parser D} {f : Str} {a : ArgObj Str D} (h : p.switchArg.get f = some a) (hk : p.fileArg.get f = none) (w : Option Str) :
    Upset fs p [(f, w)] none { p with switchArg := p.switchArg.set f a } := by
  refine ⟨rfl, rfl, rfl, fun _ => rfl, fun g => get_set_same h g, fun _ => rfl, fun _ => rfl, fun _ _ => rfl, fun _ _ => rfl, (fun f u h => by cases h), fun g => ?_,
    fun ok => ⟨ok.strs, ?_, ok.ints, ok.doubles, ok.files⟩⟩
  · cases hg : p.fileArg.get g with
    | none => exact .inl ⟨rfl, rfl⟩
    | some b =>
      refine .inr ⟨b, rfl, .inl ⟨fun v hv => ?_, rfl⟩⟩
      simp only [List.mem_singleton, Prod.mk.injEq] at hv
      rw [hv.1, hk] at hg; cases hg
  · exact ok.switches.set f (ok.switches f a h)

theorem Upset.int {fs : FS} {p : Parser D} {f : Str} {a : ArgObj Int D} (h : p.intArg.get f = some a) (hk : p.fileArg.get f = none) (w : Option Str) :
    Upset fs p [(f, w)] none { p with intArg := p.intArg.set f a } := by
  refine ⟨rfl, rfl, rfl, fun _ => rfl, fun _ => rfl, fun g => get_set_same h g, fun _ => rfl, fun _ _ => rfl, fun _ _ => rfl, (fun f u h => by cases h), fun g => ?_,
    fun ok => ⟨ok.strs, ok.switches, ?_, ok.doubles, ok.files⟩⟩
  · cases hg : p.fileArg.get g with
    | none => exact .inl ⟨rfl, rfl⟩
    | some b =>
      refine .inr ⟨b, rfl, .inl ⟨fun v hv => ?_, rfl⟩⟩
      simp only [List.mem_singleton, Prod.mk.injEq] at hv
      rw [hv.1, hk] at hg; cases hg
  · exact ok.ints.set f (ok.ints f a h)

theorem Upset.double {fs : FS} {p : Parser D} {f : Str} {a : ArgObj D D} (h : p.doubleArg.get f = some a) (hk : p.fileArg.get f = none) (w : Option Str) :
    Upset fs p [(f, w)] none { p with doubleArg := p.doubleArg.set f a } := by
  refine ⟨rfl, rfl, rfl, fun _ => rfl, fun _ => rfl, fun _ => rfl, fun g => get_set_same h g, fun _ _ => rfl, fun _ _ => rfl, (fun f u h => by cases h), fun g => ?_,
    fun ok => ⟨ok.strs, ok.switches, ok.ints, ?_, ok.files⟩⟩
  · cases hg : p.fileArg.get g with
    | none => exact .inl ⟨rfl, rfl⟩
    | some b =>
      refine .inr ⟨b, rfl, .inl ⟨fun v hv => ?_, rfl⟩⟩
      simp only [List.mem_singleton, Prod.mk.injEq] at hv
      rw [hv.1, hk] at hg; cases hg
  · exact ok.doubles.set f (ok.doubles f a h)

theorem Upset.file {fs : FS} {p : Parser D} {f v : Str} {a : ArgObj Str D} (h : p.fileArg.get f = some a) (ok : Reached newArgumentFile a) (hf : Fits v) {e : Exn}
    (hv : a.valid fs v = .throw e) : Upset fs p [(f, some v)] none { p with fileArg := p.fileArg.set f (a.validL fs v).1 } := by
  obtain ⟨o, h1, h2⟩ := file_left ok fs v hf hv
  refine ⟨rfl, rfl, rfl, fun _ => rfl, fun _ => rfl, fun _ => rfl, fun _ => rfl, fun _ _ => rfl, fun _ _ => rfl, (fun f u h => by cases h), fun g => ?_,
    fun ok' => ⟨ok'.strs, ok'.switches, ok'.ints, ok'.doubles, ?_⟩⟩
  · dsimp only
    rw [Map.get_set]
    by_cases e : g = f
    · subst e
      rw [if_pos rfl, h2]
      exact .inr ⟨a, h, .inr ⟨v, o, rfl, h1, rfl⟩⟩
    · rw [if_neg e]
      cases hg : p.fileArg.get g with
      | none => exact .inl ⟨rfl, rfl⟩
      | some b => exact .inr ⟨b, rfl, .inl ⟨by simp [e], rfl⟩⟩
  · refine ok'.files.set f ?_
    rw [h2]
    split
    · refine .setInt (lit "PROPERTY_FILE_EXIST") (lit "FILE_DOES_EXIST") 1 ok ?_
      obtain ⟨o1, o2, o3, m, d, exts, sis, rfl, e1, e2, e3, e4⟩ := fileForm ok
      cases h1
      unfold ArgObj.setInt
      simp only [setAll, List.mapM_cons, List.mapM_nil, setOpt, e2]
      rfl
    · have : a = { a with ints := [⟨fileExistVT, o⟩] } := by rw [← h1]
      rw [← this]; exact ok

omit [Dbl D] in
/-- Without the value that was tried, if that is not the value of a file. -/
theorem Upset.drop {fs : FS} {p q : Parser D} {f : Str} {w : Option Str} {o : Option (Str × Str)} [Dbl D] (h : Upset fs p [(f, w)] o q)
    (hf : p.fileArg.get f = none) : Upset fs p [] o q := by
  refine ⟨h.flags, h.sizes, h.doubles, h.strArg, h.switchArg, h.intArg, h.doubleArg, h.ints, h.strs, h.word, fun g => ?_, h.ok⟩
  rcases h.files g with e | ⟨a, e1, ⟨-, e2⟩ | ⟨v, o, e2, -⟩⟩
  · exact .inl e
  · exact .inr ⟨a, e1, .inl ⟨by simp, e2⟩⟩
  · cases e2; rw [hf] at e1; cases e1

omit [Dbl D] in
/-- With a value that was tried, if that is not the value of a file. -/
theorem Upset.add {fs : FS} {p q : Parser D} {f : Str} {w : Option Str} {o : Option (Str × Str)} [Dbl D] (h : Upset fs p [] o q)
    (hf : p.fileArg.get f = none) : Upset fs p [(f, w)] o q := by
  refine ⟨h.flags, h.sizes, h.doubles, h.strArg, h.switchArg, h.intArg, h.doubleArg, h.ints, h.strs, h.word, fun g => ?_, h.ok⟩
  rcases h.files g with e | ⟨a, e1, ⟨-, e2⟩ | ⟨v, o, e2, -⟩⟩
  · exact .inl e
  · refine .inr ⟨a, e1, .inl ⟨fun v hv => ?_, e2⟩⟩
    simp only [List.mem_singleton, Prod.mk.injEq] at hv
    rw [hv.1, hf] at e1; cases e1
  · cases e2

/-- What a value that is not acceptable leaves behind. -/
theorem bad_left (fs : FS) {p : Parser D} (o : Orderly p) (ok : ArgsOk p) (en : Enforcing p) {t f v : Str} {e : Exn}
    (hs : StandsFor p t f) (hb : Unacceptable fs p f v e) (ts : List Str) (hf : Fits v) :
    ∃ s, parseArgL fs p t (v :: ts) = (s, .throw e) ∧ Upset fs p [(f, some v)] none s.p := by
  obtain rfl := resolve_stands o hs
  have nofile : ∀ {k}, HasArg p (resolve p t) k → k ≠ .file → p.fileArg.get (resolve p t) = none :=
    fun h n => not_not.1 fun h' => n (o.one _ _ _ h h')
  have thr : ∀ {S : Type} {x : S} {a : ArgObj S D}, Fair (a.valid fs x) → (¬ ∃ a', a.valid fs x = .ok a') → a.valid fs x = .throw .invalidArgument := by
    rintro S x a (h | h) hn
    · exact absurd h hn
    · exact h
  cases hb with
  | large ha hn hr =>
    have nf := nofile ha (by decide)
    obtain ⟨a, ha⟩ := Option.ne_none_iff_exists'.1 ha
    exact ⟨_, (leftArg_int o ha ts).1 ((C67_stoi v).2.1 _ hn hr), (Upset.same fs p).add nf⟩
  | unread ha hx =>
    have nf := nofile ha (by decide)
    obtain ⟨a, ha⟩ := Option.ne_none_iff_exists'.1 ha
    exact ⟨_, (leftArg_double o ha ts).1 hx, (Upset.same fs p).add nf⟩
  | @wrong k ha hk hn hint hdbl =>
    cases k with
    | switch => exact absurd rfl hk
    | str =>
      have nf := nofile ha (by decide)
      obtain ⟨a, ha⟩ := Option.ne_none_iff_exists'.1 ha
      have hv := thr (fair_str (ok.strs _ _ ha) fs v (en _ _ ha)) (by
        rintro ⟨a', h⟩
        obtain ⟨-, lo, hi, e, es, cs, h1, h2, h3, h4, h5, h6⟩ := (str_valid (ok.strs _ _ ha) fs v a').1 h
        exact hn (.str ha h1 h2 h3 h4 h5 h6))
      refine ⟨_, leftArg_str ha ts hv, ?_⟩
      rw [str_left (ok.strs _ _ ha)]
      exact Upset.str ha nf _
    | int =>
      have nf := nofile ha (by decide)
      obtain ⟨a, ha⟩ := Option.ne_none_iff_exists'.1 ha
      by_cases hx : ∃ n, IntText v n
      · obtain ⟨n, hx⟩ := hx
        have hv := thr (fair_int (ok.ints _ _ ha) fs n) (by
          rintro ⟨a', h⟩
          obtain ⟨-, lo, hi, h1, h2, h3, h4⟩ := (int_valid (ok.ints _ _ ha) fs n a').1 h
          exact hn (.int ha h1 h2 hx (hint rfl n hx) ⟨h3, h4⟩))
        refine ⟨_, (leftArg_int o ha ts).2 n ((C67_stoi v).1 _ hx (hint rfl n hx)) hv, ?_⟩
        rw [int_left (ok.ints _ _ ha)]
        exact Upset.int ha nf _
      · exact ⟨_, (leftArg_int o ha ts).1 ((C67_stoi v).2.2 hx), (Upset.same fs p).add nf⟩
    | double =>
      have nf := nofile ha (by decide)
      obtain ⟨a, ha⟩ := Option.ne_none_iff_exists'.1 ha
      obtain ⟨x, hx⟩ := hdbl rfl
      have hv := thr (fair_double (ok.doubles _ _ ha) fs x) (by
        rintro ⟨a', h⟩
        obtain ⟨-, lo, hi, h1, h2, h3, h4⟩ := (double_valid (ok.doubles _ _ ha) fs x a').1 h
        exact hn (.double ha h1 h2 hx h3 h4))
      refine ⟨_, (leftArg_double o ha ts).2 x hx hv, ?_⟩
      rw [double_left (ok.doubles _ _ ha)]
      exact Upset.double ha nf _
    | file =>
      obtain ⟨a, ha⟩ := Option.ne_none_iff_exists'.1 ha
      have hv := thr (fair_file (ok.files _ _ ha) fs v hf) (by
        rintro ⟨a', h⟩
        rcases file_valid (ok.files _ _ ha) fs v hf with ⟨⟨m, exts, dir, core, ext, h1, h2, h3, h4, h5⟩, -⟩ | ⟨-, er, hv⟩
        · exact hn (.file ha h1 h2 h3 h4 h5)
        · rw [hv] at h; cases h)
      exact ⟨_, leftArg_file o ha ts hv, Upset.file ha (ok.files _ _ ha) hf hv⟩

/-- What a mistake leaves behind. -/
theorem mistake_left (fs : FS) {p : Parser D} (o : Orderly p) (ok : ArgsOk p) (en : Enforcing p) {rest : List Str} {e : Exn}
    {tried : List (Str × Option Str)} {word : Option (Str × Str)} (h : Mistake fs p rest e tried word) (hfit : ∀ v ∈ rest, Fits v) (size allowed : Nat) :
    ∃ q, parseLoopL fs size 0 allowed p rest = (q, .throw e) ∧ Upset fs p tried word q := by
  cases h with
  | missing hi hv hs ha hk =>
    obtain rfl := resolve_stands o hs
    exact ⟨_, loopL_throw hi hv (leftArg_nil o ha hk), .same fs p⟩
  | bad hi hv hs hb =>
    obtain ⟨s, h1, h2⟩ := bad_left fs o ok en hs hb _ (hfit _ (by simp))
    exact ⟨_, loopL_throw hi hv h1, h2⟩
  | unknown hi hv hn =>
    exact ⟨_, loopL_throw hi hv (leftArg_none _ fun k hk => hn _ k (stands_resolve o hk) hk), .same fs p⟩
  | @stray t f u ts hi hv hs ha hu hw =>
    obtain rfl := resolve_stands o hs
    have nf : p.fileArg.get (resolve p t) = none := not_not.1 fun h' => by have := o.one _ .switch .file ha h'; cases this
    obtain ⟨a, ha⟩ := Option.ne_none_iff_exists'.1 ha
    have hn : nextIsFlag p (u :: ts) = false := by
      rw [← Bool.not_eq_true]
      intro h
      obtain ⟨g, hg⟩ := ((next_iff o (u :: ts)).1 h).2 u rfl
      exact hu g hg
    have hv' : a.valid fs u = .throw .invalidArgument := by
      obtain ⟨o', x, rfl, -⟩ := switchForm (ok.switches _ _ ha)
      simp only [List.mem_cons, List.not_mem_nil, or_false, not_or] at hw
      have h1 : switchVT.valid fs u o' = .throw .invalidArgument := by
        show switchValid fs u o' = _
        unfold switchValid
        rw [if_pos hw]
      unfold ArgObj.valid
      dsimp only
      rw [validAll_one, h1]; rfl
    refine ⟨_, loopL_throw hi hv (leftArg_switch o ha ts hn hv'), ?_⟩
    rw [switch_left (ok.switches _ _ ha)]
    exact (Upset.switch ha nf none).drop nf
  | @setting t f u ts hi hv hs ha hu hw =>
    obtain rfl := resolve_stands o hs
    have hsw := ha
    have nf : p.fileArg.get (resolve p t) = none := not_not.1 fun h' => by have := o.one _ .switch .file ha h'; cases this
    obtain ⟨a, ha⟩ := Option.ne_none_iff_exists'.1 ha
    have hn : ¬ nextIsFlag p (u :: ts) = true := by
      intro h
      obtain ⟨g, hg⟩ := ((next_iff o (u :: ts)).1 h).2 u rfl
      exact hu g hg
    have h1 : a.valid fs u = .ok a := by
      obtain ⟨o', x, rfl, -⟩ := switchForm (ok.switches _ _ ha)
      have h1 : switchVT.valid fs u o' = .ok o' := by
        show switchValid fs u o' = _
        unfold switchValid
        rw [if_neg]
        simp only [List.mem_cons, List.not_mem_nil, or_false] at hw
        rintro ⟨a1, a2, a3, a4, a5, a6⟩
        rcases hw with e | e | e | e | e | e
        exacts [a1 e, a2 e, a3 e, a4 e, a5 e, a6 e]
      unfold ArgObj.valid
      dsimp only
      rw [validAll_one, h1]; rfl
    have h2 : positive u = .ok (decide (u ∈ [(lit "ON"), (lit "TRUE"), (lit "1")])) := by
      simp only [List.mem_cons, List.not_mem_nil, or_false] at hw
      rcases hw with rfl | rfl | rfl | rfl | rfl | rfl <;> decide
    have e := oneArg_switch (fs := fs) (u :: ts) o ha
    rw [if_neg hn] at e
    dsimp only at e
    rw [h1, Res.ok_bind, h2, Res.ok_bind] at e
    obtain ⟨w1, w2⟩ := switch_words h2
    have hk : ∀ k, ¬ HasArg ({ p with
        switchArg := p.switchArg.set (resolve p t) a
        strs := p.strs.set (resolve p t) u
        ints := p.ints.set (resolve p t) (if decide (u ∈ [(lit "ON"), (lit "TRUE"), (lit "1")]) = true then 1 else 0) } : Parser D) (resolve p u) k := by
      intro k hk'
      have hk'' : HasArg p (resolve p u) k := by
        cases k with
        | switch => show p.switchArg.get (resolve p u) ≠ none; rw [← get_set_same ha]; exact hk'
        | _ => exact hk'
      exact hu _ (stands_resolve o hk'')
    refine ⟨_, (loopL_ok hi hv e).trans (loopL_throw w1 w2 (leftArg_none ts hk)), rfl, rfl, rfl, fun _ => rfl, fun g => get_set_same ha g, fun _ => rfl,
      fun _ => rfl, fun g hg => ?_, fun g hg => ?_, fun f u' h => ?_, fun g => ?_, fun ok' => ⟨ok'.strs, ok'.switches.set _ (ok'.switches _ _ ha), ok'.ints, ok'.doubles, ok'.files⟩⟩
    · dsimp only
      rw [Map.get_set, if_neg]
      rintro rfl; exact hg u rfl
    · dsimp only
      rw [Map.get_set, if_neg]
      rintro rfl; exact hg u rfl
    · cases h
      refine ⟨hsw, by simp, ?_⟩
      simp
    · dsimp only
      cases hg : p.fileArg.get g with
      | none => exact .inl ⟨rfl, rfl⟩
      | some b => exact .inr ⟨b, rfl, .inl ⟨by simp, rfl⟩⟩

/-! ### The acceptable beginning -/

theorem RulesAfter.begins {fs fs' : FS} {p q : Parser D} {as bs : List (Str × Option Str)} (h : RulesAfter fs p as q) {args rest : List Str}
    (k : Begins fs' p args bs rest) : Begins fs' q args bs rest := by
  have st : ∀ t f, StandsFor q t f ↔ StandsFor p t f := by intro t f; unfold StandsFor; rw [h.flags]
  induction k with
  | here => exact .here _
  | info hi _ ih => exact .info hi ih
  | value hi hv hs ha _ ih => exact .value hi hv ((st _ _).2 hs) ((h.acceptable _ _).2 ha) ih
  | switch hi hv hs ha hn _ ih =>
    exact .switch hi hv ((st _ _).2 hs) ((h.same.kind _ _).2 ha) (fun u hu => (hn u hu).imp (fun g hg => (st _ _).2 hg)) ih

theorem RulesAfter.mistake {fs fs' : FS} {p q : Parser D} {as : List (Str × Option Str)} (h : RulesAfter fs p as q) {rest : List Str} {e : Exn}
    {tried : List (Str × Option Str)} {word : Option (Str × Str)} (k : Mistake fs' p rest e tried word) : Mistake fs' q rest e tried word := by
  have st : ∀ t f, StandsFor q t f ↔ StandsFor p t f := by intro t f; unfold StandsFor; rw [h.flags]
  cases k with
  | missing hi hv hs ha hk => exact .missing hi hv ((st _ _).2 hs) ((h.same.kind _ _).2 ha) hk
  | bad hi hv hs hb => exact .bad hi hv ((st _ _).2 hs) (h.unacceptable hb)
  | stray hi hv hs ha hu hw => exact .stray hi hv ((st _ _).2 hs) ((h.same.kind _ _).2 ha) (fun g hg => hu g ((st _ _).1 hg)) hw
  | setting hi hv hs ha hu hw => exact .setting hi hv ((st _ _).2 hs) ((h.same.kind _ _).2 ha) (fun g hg => hu g ((st _ _).1 hg)) hw
  | unknown hi hv hn => exact .unknown hi hv fun f k hs ha => hn f k ((st _ _).1 hs) ((h.same.kind _ _).1 ha)

omit [Dbl D] in
theorem Mistake.nonempty [Dbl D] {fs : FS} {p : Parser D} {rest : List Str} {e : Exn} {tried : List (Str × Option Str)} {word : Option (Str × Str)}
    (h : Mistake fs p rest e tried word) : rest ≠ [] := by cases h <;> simp

/-- A refused command line is an acceptable beginning and a mistake. -/
theorem refuses_iff (fs : FS) (p : Parser D) (args : List Str) (e : Exn) :
    Refuses fs p args e ↔ ∃ as rest tried word, Begins fs p args as rest ∧ Mistake fs p rest e tried word := by
  constructor
  · intro h
    induction h with
    | info hi _ ih => obtain ⟨as, rest, tr, w, h1, h2⟩ := ih; exact ⟨as, rest, tr, w, .info hi h1, h2⟩
    | value hi hv hs ha _ ih => obtain ⟨as, rest, tr, w, h1, h2⟩ := ih; exact ⟨_, rest, tr, w, .value hi hv hs ha h1, h2⟩
    | switch hi hv hs ha hn _ ih => obtain ⟨as, rest, tr, w, h1, h2⟩ := ih; exact ⟨_, rest, tr, w, .switch hi hv hs ha hn h1, h2⟩
    | missing hi hv hs ha hk => exact ⟨_, _, _, _, .here _, .missing hi hv hs ha hk⟩
    | bad hi hv hs hb => exact ⟨_, _, _, _, .here _, .bad hi hv hs hb⟩
    | @stray t f u ts hi hv hs ha hu =>
      by_cases hw : u ∈ [(lit "0"), (lit "1"), (lit "ON"), (lit "OFF"), (lit "TRUE"), (lit "FALSE")]
      · exact ⟨_, _, _, _, .here _, .setting hi hv hs ha hu hw⟩
      · exact ⟨_, _, _, _, .here _, .stray hi hv hs ha hu hw⟩
    | unknown hi hv hn => exact ⟨_, _, _, _, .here _, .unknown hi hv hn⟩
  · rintro ⟨as, rest, tr, w, h1, h2⟩
    induction h1 with
    | here =>
      cases h2 with
      | missing hi hv hs ha hk => exact .missing hi hv hs ha hk
      | bad hi hv hs hb => exact .bad hi hv hs hb
      | stray hi hv hs ha hu _ => exact .stray hi hv hs ha hu
      | setting hi hv hs ha hu _ => exact .stray hi hv hs ha hu
      | unknown hi hv hn => exact .unknown hi hv hn
    | info hi _ ih => exact .info hi (ih h2)
    | value hi hv hs ha _ ih => exact .value hi hv hs ha (ih h2)
    | switch hi hv hs ha hn _ ih => exact .switch hi hv hs ha hn (ih h2)

theorem loopL_info (fs : FS) (size allowed : Nat) (p : Parser D) {t : Str} (hi : t ∈ infoTokens) (ts : List Str) :
    parseLoopL fs size 0 allowed p (t :: ts) = if allowed = size then (p, .exit 0) else parseLoopL fs size 0 (allowed + 1) p ts := by
  simp only [infoTokens, List.mem_cons, List.not_mem_nil, or_false] at hi
  conv => lhs; unfold parseLoopL
  rcases hi with rfl | rfl | rfl | rfl
  · rw [if_pos (.inl rfl)]
  · rw [if_pos (.inr rfl)]
  · rw [if_neg (by decide), if_neg (by decide), if_pos (.inl rfl)]
  · rw [if_neg (by decide), if_neg (by decide), if_pos (.inr rfl)]

/-- A value is read without regard to what follows it. -/
theorem value_alone (fs : FS) {p : Parser D} (o : Orderly p) {t f v : Str} (hs : StandsFor p t f) {k : ArgKind} (ha : HasArg p f k) (hk : k ≠ .switch)
    (ts us : List Str) : parseArg fs p t (v :: ts) = parseArg fs p t (v :: us) := by
  obtain rfl := resolve_stands o hs
  cases k with
  | switch => exact absurd rfl hk
  | str => obtain ⟨a, ha⟩ := Option.ne_none_iff_exists'.1 ha; rw [oneArg_str _ o ha, oneArg_str _ o ha]
  | int => obtain ⟨a, ha⟩ := Option.ne_none_iff_exists'.1 ha; rw [oneArg_int _ o ha, oneArg_int _ o ha]
  | double => obtain ⟨a, ha⟩ := Option.ne_none_iff_exists'.1 ha; rw [oneArg_double _ o ha, oneArg_double _ o ha]
  | file => obtain ⟨a, ha⟩ := Option.ne_none_iff_exists'.1 ha; rw [oneArg_file _ o ha, oneArg_file _ o ha]

theorem switch_alone (fs : FS) {p : Parser D} (o : Orderly p) {t f : Str} (hs : StandsFor p t f) (ha : HasArg p f .switch) (ts : List Str)
    (next : ∀ u ∈ ts.head?, ∃ g, StandsFor p u g) : parseArg fs p t ts = .ok ({ p with ints := p.ints.set f 1 }, 0) := by
  obtain rfl := resolve_stands o hs
  obtain ⟨a, ha⟩ := Option.ne_none_iff_exists'.1 ha
  rw [oneArg_switch _ o ha]
  split
  · rfl
  · rename_i hn
    cases ts with
    | nil => rfl
    | cons v ts => exact absurd ((next_iff o (v :: ts)).2 ⟨by simp, next⟩) hn

/-- The beginning is read as if it stood alone. -/
theorem begins_loop {fs : FS} {size : Nat} {rest : List Str} (hr : rest ≠ []) {args : List Str} {as : List (Str × Option Str)} :
    ∀ {p : Parser D} {allowed : Nat}, Begins fs p args as rest → (∀ v ∈ args, Fits v) → Orderly p → ArgsOk p → allowed + args.length ≤ size + 1 →
    ∃ pre p1 allowed1, args = pre ++ rest ∧ Fine fs p pre as ∧ parseLoopL fs size 0 allowed p args = parseLoopL fs size 0 allowed1 p1 rest ∧ ArgsOk p1 ∧
      ∀ size' allowed', allowed' + pre.length ≤ size' + 1 → (as = [] → allowed' + pre.length ≤ size') → parseLoop fs size' 0 allowed' p pre = .ok p1 := by
  induction hn : args.length using Nat.strongRecOn generalizing args as with
  | _ n ih =>
    subst hn
    intro p allowed h hfit o ok hlen
    cases h with
    | here => exact ⟨[], p, allowed, rfl, .nil, rfl, ok, fun _ _ _ _ => rfl⟩
    | @info t ts _ _ hi h =>
      obtain ⟨pre, p1, al1, e1, e2, e3, e4, e5⟩ := ih ts.length (by simp) rfl (allowed := allowed + 1) h (fun v hv => hfit v (by simp [hv])) o ok
        (by simp only [List.length_cons] at hlen; omega)
      have hts : 1 ≤ ts.length := by
        rw [e1, List.length_append]
        have := List.length_pos_iff.2 hr
        omega
      refine ⟨t :: pre, p1, al1, by rw [e1]; rfl, .info hi e2, ?_, e4, fun size' allowed' g1 g2 => ?_⟩
      · rw [loopL_info fs size allowed p hi, if_neg (by simp only [List.length_cons] at hlen; omega)]
        exact e3
      · simp only [List.length_cons] at g1 g2
        have hne : allowed' ≠ size' := by
          intro e
          by_cases ha : as = []
          · have := g2 ha; omega
          · cases pre with
            | nil => cases e2; exact ha rfl
            | cons x xs => simp only [List.length_cons] at g1; omega
        rw [loop_info fs size' allowed' p hi, if_neg hne]
        exact e5 size' (allowed' + 1) (by omega) (fun ha => by have := g2 ha; omega)
    | @value t f v ts as' _ hi hv hs hacc h =>
      have hstep := hfit
      rcases step_outcome fs o ok t (v :: ts) (fun v hv => hfit v (List.mem_cons_of_mem _ hv)) with ⟨f', v', us, q1, e1, hs', -, e, ra⟩ | ⟨f', q1, hs', hsw, -⟩ | ⟨hno, -⟩
      · cases e1
        obtain ⟨pre, p1, al1, e1, e2, e3, e4, e5⟩ := ih ts.length (by simp only [List.length_cons]; omega) rfl (allowed := allowed) (ra.begins h)
          (fun v hv => hfit v (by simp [hv])) (ra.same.orderly o) (argsOk_parseArg ok e) (by simp only [List.length_cons] at hlen; omega)
        refine ⟨t :: v :: pre, p1, al1, by rw [e1]; rfl, .value hi hv hs hacc ((ra.fine _ _).1 e2), ?_, e4, fun size' allowed' g1 g2 => ?_⟩
        · rw [loopL_ok hi hv e]
          exact e3
        · simp only [List.length_cons] at g1
          obtain ⟨k, k1, k2⟩ := hacc.kind
          rw [loop_flag fs size' allowed' p hi hv, value_alone fs o hs k1 k2 pre ts, e, Res.ok_bind]
          dsimp only
          have sk : parseLoop fs size' 1 allowed' q1 (v :: pre) = parseLoop fs size' 0 allowed' q1 pre := by
            conv => lhs; unfold parseLoop
          rw [sk]
          exact e5 size' allowed' (by omega) (fun _ => by omega)
      · obtain ⟨k, k1, k2⟩ := hacc.kind
        rw [hs'.unique o hs] at hsw
        exact absurd (o.one _ _ _ k1 hsw) k2
      · exact absurd ⟨f, hs, .inl ⟨v, rfl, hacc⟩⟩ hno
    | @switch t f ts as' _ hi hv hs ha hnx h =>
      rcases step_outcome fs o ok t ts (fun v hv => hfit v (List.mem_cons_of_mem _ hv)) with ⟨f', v', us, q1, e1, hs', hacc, -⟩ | ⟨f', q1, hs', hsw, -, e, ra⟩ | ⟨hno, -⟩
      · obtain ⟨k, k1, k2⟩ := hacc.kind
        rw [hs'.unique o hs] at k1
        exact absurd (o.one _ _ _ k1 ha) k2
      · obtain ⟨pre, p1, al1, e1, e2, e3, e4, e5⟩ := ih ts.length (by simp) rfl (allowed := allowed) (ra.begins h)
          (fun v hv => hfit v (by simp [hv])) (ra.same.orderly o) (argsOk_parseArg ok e) (by simp only [List.length_cons] at hlen; omega)
        have nx : ∀ u ∈ pre.head?, ∃ g, StandsFor p u g := by
          intro u hu
          refine hnx u ?_
          rw [e1]
          cases pre with
          | nil => cases hu
          | cons x xs => exact hu
        refine ⟨t :: pre, p1, al1, by rw [e1]; rfl, .switch hi hv hs ha nx ((ra.fine _ _).1 e2), ?_, e4, fun size' allowed' g1 g2 => ?_⟩
        · rw [loopL_ok hi hv e]
          exact e3
        · simp only [List.length_cons] at g1
          have e' : parseArg fs p t pre = .ok (q1, 0) := by
            rw [switch_alone fs o hs ha pre nx, ← e, switch_alone fs o hs ha ts hnx]
          rw [loop_flag fs size' allowed' p hi hv, e', Res.ok_bind]
          dsimp only
          exact e5 size' allowed' (by omega) (fun _ => by omega)
      · exact absurd ⟨f, hs, .inr ⟨ha, hnx⟩⟩ hno

/-! ### As seen through the interface -/

theorem file_value {a : ArgObj Str D} {o o' : Map Int} (ha : a.ints = [⟨fileExistVT, o⟩]) {pr op : Str}
    (h : pr = (lit "PROPERTY_FILE_EXIST") → o'.get op = o.get op) :
    ({ a with ints := [⟨fileExistVT, o'⟩] } : ArgObj Str D).propertyValue pr op = a.propertyValue pr op := by
  unfold ArgObj.propertyValue
  have : findValue intToStr pr op ([⟨fileExistVT, o'⟩] : List (PropObj Str Int)) = findValue intToStr pr op a.ints := by
    rw [ha]
    simp only [findValue]
    by_cases c : pr = fileExistVT.name ∧ op ∈ fileExistVT.optNames
    · rw [if_pos c, if_pos c]
      unfold getOpt
      rw [h c.1]
    · rw [if_neg c, if_neg c]
  simp only [this]

theorem Upset.kinds {fs : FS} {p q : Parser D} {tried : List (Str × Option Str)} {word : Option (Str × Str)} (h : Upset fs p tried word q) (f : Str) (k : ArgKind) :
    HasArg q f k ↔ HasArg p f k := by
  cases k <;> simp only [HasArg]
  · rw [h.strArg]
  · rw [h.switchArg]
  · rw [h.intArg]
  · rw [h.doubleArg]
  · rcases h.files f with ⟨a, b⟩ | ⟨a, e1, ⟨-, e2⟩ | ⟨v, o, -, -, e2⟩⟩
    · rw [a, b]
    · rw [e1, e2]
    · rw [e1, e2]; simp

theorem Upset.alike {fs : FS} {p q : Parser D} {tried : List (Str × Option Str)} {word : Option (Str × Str)} (h : Upset fs p tried word q) :
    Alike q p (Worded word) (DoesExist tried) := by
  refine ⟨h.flags, h.kinds, fun f hf => ?_, fun f => ?_, fun f => ?_, fun f arg pr op hop => ?_⟩
  · have hw : ∀ u, word ≠ some (f, u) := fun u e => hf ⟨u, e⟩
    refine ⟨?_, ?_⟩
    · unfold getInt; rw [h.ints f hw, h.strs f hw, h.switchArg]
    · unfold getStr; rw [h.ints f hw, h.strs f hw, h.switchArg]
  · unfold getDouble; rw [h.doubles]
  · unfold getSize; rw [h.sizes]
  · unfold getFlagArgOptValue
    rw [h.strArg, h.switchArg, h.intArg]
    rcases h.files f with ⟨a, b⟩ | ⟨a, e1, ⟨-, e2⟩ | ⟨v, o, e3, e4, e2⟩⟩
    · rw [a, b]
    · rw [e1, e2]
    · rw [e1, e2]
      have := file_value (a := a) (o := o) (o' := if fs v = true then o.set (lit "FILE_DOES_EXIST") 1 else o) e4 (pr := pr) (op := op) (by
        intro hp
        split
        · rw [Map.get_set_ne]
          rintro rfl
          exact hop ⟨⟨v, by rw [e3]; simp⟩, hp, rfl⟩
        · rfl)
      simp only [Option.filter]
      by_cases c : a.name = arg
      · subst c
        simp only [decide_true, if_true]
        rw [this]
      · simp only [c, decide_false, Bool.false_eq_true, if_false]

/-- The rules after a mistake. -/
theorem Upset.rules {fs : FS} {p q : Parser D} {tried : List (Str × Option Str)} {word : Option (Str × Str)} (h : Upset fs p tried word q) (ok : ArgsOk p) :
    RulesAfter fs p tried q := by
  refine ⟨h.flags, h.intArg, h.doubleArg, h.strArg, h.switchArg, fun g => ?_⟩
  rcases h.files g with e | ⟨a, e1, ⟨e3, e2⟩ | ⟨v, o, e3, e4, e2⟩⟩
  · exact .inl e
  · exact .inr ⟨a, a, e1, e2, fun _ => Iff.rfl, fun _ => Iff.rfl, by simp [e3]⟩
  · refine .inr ⟨a, _, e1, e2, fun m => ?_, fun x => Iff.rfl, ?_⟩
    · dsimp only
      rw [e4, argOpt_one (show fileExistVT.name = (lit "PROPERTY_FILE_EXIST") from rfl), argOpt_one (show fileExistVT.name = (lit "PROPERTY_FILE_EXIST") from rfl)]
      split
      · rw [Map.get_set_ne _ (by decide)]
      · rfl
    · dsimp only
      rw [e4, argOpt_one (show fileExistVT.name = (lit "PROPERTY_FILE_EXIST") from rfl), argOpt_one (show fileExistVT.name = (lit "PROPERTY_FILE_EXIST") from rfl), e3]
      cases hv : fs v <;> simp [hv]

omit [Dbl D] in
/-- Values held, as seen through the getters. -/
theorem Holds.seen [Dbl D] {p q : Parser D} {as : List (Str × Option Str)} (o : Orderly p) (same : SameSetup p q) (hh : Holds p as q) : Seen p as q (fun _ => False) := by
  have no : ∀ {f k k'}, HasArg p f k → k ≠ k' → ¬ HasArg p f k' := fun a n b => n (o.one _ _ _ a b)
  refine ⟨?_, ?_, ?_, ?_, ?_, ?_⟩
  · intro f _ hf
    have s1 : p.switchArg.get f = none := not_not.1 (no hf (k' := .switch) (by decide))
    have s2 : q.switchArg.get f = none := not_not.1 (fun a => no hf (k' := .switch) (by decide) ((same.kind f .switch).1 a))
    rcases hh.int f hf with ⟨a, b⟩ | ⟨v, n, a, b, c⟩
    · refine ⟨fun v hv => (by rw [a] at hv; cases hv), fun _ => ?_⟩
      simp only [getInt, b, s1, s2]
    · refine ⟨fun v' hv => ?_, fun hn => (by rw [a] at hn; cases hn)⟩
      rw [a] at hv; cases hv
      exact ⟨v, n, rfl, intText_of_stoi b, by simp only [getInt, c]⟩
  · intro f _ hf
    have s1 : p.switchArg.get f = none := by
      rcases hf with hf | hf
      · exact not_not.1 (no hf (k' := .switch) (by decide))
      · exact not_not.1 (no hf (k' := .switch) (by decide))
    have s2 : q.switchArg.get f = none := not_not.1 (fun a => ((same.kind f .switch).1 a) s1)
    rcases hh.str f hf with ⟨a, b⟩ | ⟨v, a, c⟩
    · refine ⟨fun v hv => (by rw [a] at hv; cases hv), fun _ => ?_⟩
      simp only [getStr, b, s1, s2]
    · refine ⟨fun v' hv => ?_, fun hn => (by rw [a] at hn; cases hn)⟩
      rw [a] at hv; cases hv
      exact ⟨v, rfl, by simp only [getStr, c]⟩
  · intro f _ hf
    rcases hh.double f hf with ⟨a, b⟩ | ⟨v, x, a, b, c⟩
    · refine ⟨fun v hv => (by rw [a] at hv; cases hv), fun _ => ?_⟩
      simp only [getDouble, b]
    · refine ⟨fun v' hv => ?_, fun hn => (by rw [a] at hn; cases hn)⟩
      rw [a] at hv; cases hv
      exact ⟨v, x, rfl, b, by simp only [getDouble, c]⟩
  · intro f _ hf
    obtain ⟨x, hx⟩ := Option.ne_none_iff_exists'.1 hf
    obtain ⟨y, hy⟩ := Option.ne_none_iff_exists'.1 ((same.kind f .switch).2 hf)
    obtain ⟨s, ⟨a, b⟩ | ⟨a, b⟩⟩ := hh.switch f hf
    · refine ⟨fun v hv => (by rw [a] at hv; cases hv), fun _ => ?_⟩
      simp only [getInt, getStr, b, s, hx, hy]
      cases p.ints.get f <;> cases p.strs.get f <;> exact ⟨rfl, rfl⟩
    · refine ⟨fun v' hv => ?_, fun hn => (by rw [a] at hn; cases hn)⟩
      rw [a] at hv; cases hv
      exact ⟨rfl, by simp only [getInt, b], fun hn => by simp only [getStr, s, hn, hy, b, positiveInt]; rfl⟩
  · intro f; unfold getSize; rw [hh.sizes]
  · intro f hf
    have s1 : p.switchArg.get f = none := not_not.1 (hf .switch)
    have s2 : q.switchArg.get f = none := not_not.1 (fun a => hf .switch ((same.kind f .switch).1 a))
    obtain ⟨a, b, c⟩ := hh.other f hf
    exact ⟨by simp only [getInt, a, s1, s2], by simp only [getStr, b, s1, s2], by simp only [getDouble, c]⟩

theorem Seen.alike {p p1 q : Parser D} {as : List (Str × Option Str)} {ex : Str → Prop} {op : Str → Str → Str → Prop} (h : Seen p as p1 fun _ => False)
    (k : Alike q p1 ex op) (hex : ∀ f, ex f → HasArg p f .switch) : Seen p as q ex := by
  refine ⟨fun f hf hk => ?_, fun f hf hk => ?_, fun f hf hk => ?_, fun f hf hk => ?_, fun f => ?_, fun f hk => ?_⟩
  · rw [(k.values f hf).1]; exact h.int f id hk
  · rw [(k.values f hf).2]; exact h.str f id hk
  · rw [k.double]; exact h.double f id hk
  · rw [(k.values f hf).1, (k.values f hf).2]; exact h.switch f id hk
  · rw [k.size]; exact h.size f
  · have hf : ¬ ex f := fun e => hk _ (hex f e)
    rw [(k.values f hf).1, (k.values f hf).2, k.double]; exact h.other f hk
end
end Verif.Args
