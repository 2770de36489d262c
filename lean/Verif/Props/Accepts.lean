import Verif.Spec.Accepts
import Verif.Props.AnyParser
import Verif.Props.ParserOptions
import Verif.Props.Properties
import Verif.Prepare
import Mathlib.Tactic.ByContra
/-
Property C106: which command lines an arbitrary parser accepts.
-/
namespace Verif.Args
open Strings

section
variable {D : Type} [Dbl D]

/-! ### The exact form of the arguments -/

omit [Dbl D] in
theorem argOpt_one {S T : Type} {vt : VTable S T} {o : Map T} {pr op : Str} {x : T} (h : vt.name = pr) :
    ArgOpt [⟨vt, o⟩] pr op x ↔ o.get op = some x := by
  simp [ArgOpt, h]

omit [Dbl D] in
theorem getOpt_some {T : Type} {o : Map T} {op : Str} {x : T} (h : o.get op = some x) : getOpt o op = .ok x := by simp [getOpt, h]

theorem intForm {a : ArgObj Int D} (h : Reached newArgumentInt a) :
    ∃ o lo hi, a = ⟨(lit "ARGUMENT_INT"), [⟨intVT, o⟩], [], [], [], [], []⟩ ∧ o.get (lit "MIN") = some lo ∧ o.get (lit "MAX") = some hi := by
  have t := NewArg.tabulated (D := D) .int
  have s := Shape.reached t.shape t.keep h
  obtain ⟨nm, i, d, z, st, se, ve⟩ := a
  obtain ⟨h1, h2, h3, h4, h5, h6, h7⟩ := s
  replace h1 : nm = _ := h1
  obtain ⟨o_i, rfl, c_i⟩ := ShapeL.one h2
  obtain ⟨lo, e_lo⟩ := c_i.get (k := (lit "MIN")) (by decide)
  obtain ⟨hi, e_hi⟩ := c_i.get (k := (lit "MAX")) (by decide)
  replace h3 : d = [] := h3.nil
  replace h4 : z = [] := h4.nil
  replace h5 : st = [] := h5.nil
  replace h6 : se = [] := h6.nil
  replace h7 : ve = [] := h7.nil
  subst h1 h3 h4 h5 h6 h7
  exact ⟨o_i, lo, hi, rfl, e_lo, e_hi⟩

theorem doubleForm {a : ArgObj D D} (h : Reached newArgumentDouble a) :
    ∃ o lo hi, a = ⟨(lit "ARGUMENT_DOUBLE"), [], [⟨doubleVT, o⟩], [], [], [], []⟩ ∧ o.get (lit "MIN") = some lo ∧ o.get (lit "MAX") = some hi := by
  have t := NewArg.tabulated (D := D) .double
  have s := Shape.reached t.shape t.keep h
  obtain ⟨nm, i, d, z, st, se, ve⟩ := a
  obtain ⟨h1, h2, h3, h4, h5, h6, h7⟩ := s
  replace h1 : nm = _ := h1
  replace h2 : i = [] := h2.nil
  obtain ⟨o_d, rfl, c_d⟩ := ShapeL.one h3
  obtain ⟨lo, e_lo⟩ := c_d.get (k := (lit "MIN")) (show _ ∈ [(lit "MIN"), (lit "MAX")] by decide)
  obtain ⟨hi, e_hi⟩ := c_d.get (k := (lit "MAX")) (show _ ∈ [(lit "MIN"), (lit "MAX")] by decide)
  replace h4 : z = [] := h4.nil
  replace h5 : st = [] := h5.nil
  replace h6 : se = [] := h6.nil
  replace h7 : ve = [] := h7.nil
  subst h1 h2 h4 h5 h6 h7
  exact ⟨o_d, lo, hi, rfl, e_lo, e_hi⟩

theorem strForm {a : ArgObj Str D} (h : Reached newArgumentString a) :
    ∃ o o2 lo hi en cs, a = ⟨(lit "ARGUMENT_STRING"), [], [], [⟨stringVT, o⟩], [], [⟨choiceVT, o2⟩], []⟩ ∧ o.get (lit "MIN_LENGTH") = some lo ∧
      o.get (lit "MAX_LENGTH") = some hi ∧ o2.get (lit "STRING_CHOICE_ENFORCED") = some en ∧ o2.get (lit "STRING_CHOICES") = some cs := by
  have t := NewArg.tabulated (D := D) .string
  have s := Shape.reached t.shape t.keep h
  obtain ⟨nm, i, d, z, st, se, ve⟩ := a
  obtain ⟨h1, h2, h3, h4, h5, h6, h7⟩ := s
  replace h1 : nm = _ := h1
  replace h2 : i = [] := h2.nil
  replace h3 : d = [] := h3.nil
  obtain ⟨o_z, rfl, c_z⟩ := ShapeL.one h4
  obtain ⟨lo, e_lo⟩ := c_z.get (k := (lit "MIN_LENGTH")) (by decide)
  obtain ⟨hi, e_hi⟩ := c_z.get (k := (lit "MAX_LENGTH")) (by decide)
  replace h5 : st = [] := h5.nil
  obtain ⟨o_se, rfl, c_se⟩ := ShapeL.one h6
  obtain ⟨en, e_en⟩ := c_se.get (k := (lit "STRING_CHOICE_ENFORCED")) (by decide)
  obtain ⟨cs, e_cs⟩ := c_se.get (k := (lit "STRING_CHOICES")) (by decide)
  replace h7 : ve = [] := h7.nil
  subst h1 h2 h3 h5 h7
  exact ⟨o_z, o_se, lo, hi, en, cs, rfl, e_lo, e_hi, e_en, e_cs⟩

theorem switchForm {a : ArgObj Str D} (h : Reached newArgumentSwitch a) :
    ∃ o x, a = ⟨(lit "ARGUMENT_SWITCH"), [], [], [], [⟨switchVT, o⟩], [], []⟩ ∧ o.get (lit "DEFAULT") = some x := by
  have t := NewArg.tabulated (D := D) .switch
  have s := Shape.reached t.shape t.keep h
  obtain ⟨nm, i, d, z, st, se, ve⟩ := a
  obtain ⟨h1, h2, h3, h4, h5, h6, h7⟩ := s
  replace h1 : nm = _ := h1
  replace h2 : i = [] := h2.nil
  replace h3 : d = [] := h3.nil
  replace h4 : z = [] := h4.nil
  obtain ⟨o_st, rfl, c_st⟩ := ShapeL.one h5
  obtain ⟨x, e_x⟩ := c_st.get (k := (lit "DEFAULT")) (by decide)
  replace h6 : se = [] := h6.nil
  replace h7 : ve = [] := h7.nil
  subst h1 h2 h3 h4 h6 h7
  exact ⟨o_st, x, rfl, e_x⟩

theorem fileForm {a : ArgObj Str D} (h : Reached newArgumentFile a) :
    ∃ o o2 o3 m d2 exts sis, a = ⟨(lit "ARGUMENT_FILE"), [⟨fileExistVT, o⟩], [], [], [], [⟨fileExtVT, o2⟩], [⟨sisterVT, o3⟩]⟩ ∧
      o.get (lit "FILE_MUST_EXIST") = some m ∧ o.get (lit "FILE_DOES_EXIST") = some d2 ∧ o2.get (lit "ALLOWED_FILE_EXT") = some exts ∧
      o3.get (lit "ALLOWED_SISTER_FILE_EXT") = some sis := by
  have t := NewArg.tabulated (D := D) .file
  have s := Shape.reached t.shape t.keep h
  obtain ⟨nm, i, d, z, st, se, ve⟩ := a
  obtain ⟨h1, h2, h3, h4, h5, h6, h7⟩ := s
  replace h1 : nm = _ := h1
  obtain ⟨o_i, rfl, c_i⟩ := ShapeL.one h2
  obtain ⟨m, e_m⟩ := c_i.get (k := (lit "FILE_MUST_EXIST")) (by decide)
  obtain ⟨d2, e_d2⟩ := c_i.get (k := (lit "FILE_DOES_EXIST")) (by decide)
  replace h3 : d = [] := h3.nil
  replace h4 : z = [] := h4.nil
  replace h5 : st = [] := h5.nil
  obtain ⟨o_se, rfl, c_se⟩ := ShapeL.one h6
  obtain ⟨exts, e_exts⟩ := c_se.get (k := (lit "ALLOWED_FILE_EXT")) (by decide)
  obtain ⟨o_ve, rfl, c_ve⟩ := ShapeL.one h7
  obtain ⟨sis, e_sis⟩ := c_ve.get (k := (lit "ALLOWED_SISTER_FILE_EXT")) (by decide)
  subst h1 h3 h4 h5
  exact ⟨o_i, o_se, o_ve, m, d2, exts, sis, rfl, e_m, e_d2, e_exts, e_sis⟩

/-! ### Validation of one value -/

omit [Dbl D] in
theorem validAll_nil {S T : Type} (fs : FS) (v : S) : validAll fs v ([] : List (PropObj S T)) = .ok [] := rfl

omit [Dbl D] in
theorem validAll_one {S T : Type} (fs : FS) (v : S) (vt : VTable S T) (o : Map T) :
    validAll fs v [⟨vt, o⟩] = (vt.valid fs v o >>= fun o' => .ok [⟨vt, o'⟩]) := by
  unfold validAll
  rw [List.mapM_cons, List.mapM_nil]
  show ((vt.valid fs v o >>= fun o' => Res.ok (⟨vt, o'⟩ : PropObj S T)) >>= fun b => Res.ok [] >>= fun bs => Res.ok (b :: bs)) = _
  cases vt.valid fs v o <;> rfl

theorem int_valid {a : ArgObj Int D} (h : Reached newArgumentInt a) (fs : FS) (n : Int) (a' : ArgObj Int D) :
    a.valid fs n = .ok a' ↔ a' = a ∧ ∃ lo hi, ArgOpt a.ints (lit "PROPERTY_INT") (lit "MIN") lo ∧ ArgOpt a.ints (lit "PROPERTY_INT") (lit "MAX") hi ∧
      lo ≤ n ∧ n ≤ hi := by
  obtain ⟨o, lo, hi, rfl, e1, e2⟩ := intForm h
  have hv : intVT.valid fs n o = if lo ≤ n ∧ n ≤ hi then .ok o else .throw .invalidArgument := by
    show intValid fs n o = _
    unfold intValid
    rw [getOpt_some e1, getOpt_some e2]
    simp only [Res.ok_bind]
    by_cases h1 : n < lo
    · rw [if_pos h1, if_neg (by omega)]
    · rw [if_neg h1]
      by_cases h2 : n > hi
      · rw [if_pos h2, if_neg (by omega)]
      · rw [if_neg h2, if_pos (by omega)]
  have hr : (∃ lo' hi', ArgOpt [⟨intVT, o⟩] (lit "PROPERTY_INT") (lit "MIN") lo' ∧ ArgOpt [⟨intVT, o⟩] (lit "PROPERTY_INT") (lit "MAX") hi' ∧
      lo' ≤ n ∧ n ≤ hi') ↔ lo ≤ n ∧ n ≤ hi := by
    simp only [argOpt_one (show intVT.name = (lit "PROPERTY_INT") from rfl), e1, e2, Option.some.injEq]
    constructor
    · rintro ⟨_, _, rfl, rfl, h⟩; exact h
    · intro h; exact ⟨lo, hi, rfl, rfl, h⟩
  dsimp only
  rw [hr]
  unfold ArgObj.valid
  dsimp only
  rw [validAll_one, hv]
  by_cases c : lo ≤ n ∧ n ≤ hi
  · rw [if_pos c]; simp only [validAll_nil, Res.ok_bind, c, and_true]
    constructor
    · intro h; cases h; rfl
    · rintro rfl; rfl
  · rw [if_neg c]
    constructor
    · intro h; cases h
    · rintro ⟨-, h⟩; exact absurd h c

theorem double_valid {a : ArgObj D D} (h : Reached newArgumentDouble a) (fs : FS) (n : D) (a' : ArgObj D D) :
    a.valid fs n = .ok a' ↔ a' = a ∧ ∃ lo hi, ArgOpt a.doubles (lit "PROPERTY_DOUBLE") (lit "MIN") lo ∧
      ArgOpt a.doubles (lit "PROPERTY_DOUBLE") (lit "MAX") hi ∧ Dbl.lt n lo = false ∧ Dbl.lt hi n = false := by
  obtain ⟨o, lo, hi, rfl, e1, e2⟩ := doubleForm h
  have hv : doubleVT.valid fs n o = if Dbl.lt n lo = false ∧ Dbl.lt hi n = false then .ok o else .throw .invalidArgument := by
    show doubleValid fs n o = _
    unfold doubleValid
    rw [getOpt_some e1, getOpt_some e2]
    simp only [Res.ok_bind]
    cases Dbl.lt n lo <;> cases Dbl.lt hi n <;> simp
  have hr : (∃ lo' hi', ArgOpt [⟨doubleVT, o⟩] (lit "PROPERTY_DOUBLE") (lit "MIN") lo' ∧ ArgOpt [⟨doubleVT, o⟩] (lit "PROPERTY_DOUBLE") (lit "MAX") hi' ∧
      Dbl.lt n lo' = false ∧ Dbl.lt hi' n = false) ↔ Dbl.lt n lo = false ∧ Dbl.lt hi n = false := by
    simp only [argOpt_one (show (doubleVT (D := D)).name = (lit "PROPERTY_DOUBLE") from rfl), e1, e2, Option.some.injEq]
    constructor
    · rintro ⟨_, _, rfl, rfl, h⟩; exact h
    · intro h; exact ⟨lo, hi, rfl, rfl, h⟩
  dsimp only
  rw [hr]
  unfold ArgObj.valid
  dsimp only
  rw [validAll_one, hv]
  by_cases c : Dbl.lt n lo = false ∧ Dbl.lt hi n = false
  · rw [if_pos c]; simp only [validAll_nil, Res.ok_bind, c, and_true]
    constructor
    · intro h; cases h; rfl
    · rintro rfl; rfl
  · rw [if_neg c]
    simp only [validAll_nil, Res.ok_bind]
    constructor
    · intro h; cases h
    · rintro ⟨-, h⟩; exact absurd h c

theorem str_valid {a : ArgObj Str D} (h : Reached newArgumentString a) (fs : FS) (v : Str) (a' : ArgObj Str D) :
    a.valid fs v = .ok a' ↔ a' = a ∧ ∃ lo hi e es cs, ArgOpt a.sizes (lit "PROPERTY_STRING") (lit "MIN_LENGTH") lo ∧
      ArgOpt a.sizes (lit "PROPERTY_STRING") (lit "MAX_LENGTH") hi ∧
      ArgOpt a.sets (lit "PROPERTY_STRING_CHOICE") (lit "STRING_CHOICE_ENFORCED") (e :: es) ∧
      ArgOpt a.sets (lit "PROPERTY_STRING_CHOICE") (lit "STRING_CHOICES") cs ∧ (lo ≤ v.length ∧ v.length ≤ hi) ∧ (e = (lit "true") → v ∈ cs) := by
  obtain ⟨o, o2, lo, hi, en, cs, rfl, e1, e2, e3, e4⟩ := strForm h
  have hv : stringVT.valid fs v o = if lo ≤ v.length ∧ v.length ≤ hi then .ok o else .throw .invalidArgument := by
    show stringValid fs v o = _
    unfold stringValid
    rw [getOpt_some e1, getOpt_some e2]
    simp only [Res.ok_bind]
    by_cases h1 : v.length > hi
    · rw [if_pos h1, if_neg (by omega)]
    · rw [if_neg h1]
      by_cases h2 : v.length < lo
      · rw [if_pos h2, if_neg (by omega)]
      · rw [if_neg h2, if_pos (by omega)]
  have hc : choiceVT.valid fs v o2 = match en with
      | [] => .ub
      | e :: _ => if e = (lit "true") → v ∈ cs then .ok o2 else .throw .invalidArgument := by
    show choiceValid fs v o2 = _
    unfold choiceValid
    rw [getOpt_some e3, getOpt_some e4]
    simp only [Res.ok_bind]
    cases en with
    | nil => rfl
    | cons e es =>
      simp only [begin, Res.ok_bind]
      by_cases h1 : e = (lit "true")
      · by_cases h2 : v ∈ cs
        · rw [if_pos h1, if_pos h2, if_pos (fun _ => h2)]
        · rw [if_pos h1, if_neg h2, if_neg (fun h => h2 (h h1))]
      · rw [if_neg h1, if_pos (fun h => absurd h h1)]
  have hr : (∃ lo' hi' e es cs', ArgOpt [⟨stringVT, o⟩] (lit "PROPERTY_STRING") (lit "MIN_LENGTH") lo' ∧
      ArgOpt [⟨stringVT, o⟩] (lit "PROPERTY_STRING") (lit "MAX_LENGTH") hi' ∧
      ArgOpt [⟨choiceVT, o2⟩] (lit "PROPERTY_STRING_CHOICE") (lit "STRING_CHOICE_ENFORCED") (e :: es) ∧
      ArgOpt [⟨choiceVT, o2⟩] (lit "PROPERTY_STRING_CHOICE") (lit "STRING_CHOICES") cs' ∧ (lo' ≤ v.length ∧ v.length ≤ hi') ∧ (e = (lit "true") → v ∈ cs')) ↔
      (lo ≤ v.length ∧ v.length ≤ hi) ∧ ∃ e es, en = e :: es ∧ (e = (lit "true") → v ∈ cs) := by
    simp only [argOpt_one (show stringVT.name = (lit "PROPERTY_STRING") from rfl), argOpt_one (show choiceVT.name = (lit "PROPERTY_STRING_CHOICE") from rfl),
      e1, e2, e3, e4, Option.some.injEq]
    constructor
    · rintro ⟨_, _, e, es, _, rfl, rfl, h1, rfl, h2, h3⟩; exact ⟨h2, e, es, h1, h3⟩
    · rintro ⟨h2, e, es, h1, h3⟩; exact ⟨lo, hi, e, es, cs, rfl, rfl, h1, rfl, h2, h3⟩
  dsimp only
  rw [hr]
  unfold ArgObj.valid
  dsimp only
  rw [validAll_one, validAll_one, hv, hc]
  by_cases c : lo ≤ v.length ∧ v.length ≤ hi
  · rw [if_pos c]
    simp only [validAll_nil, Res.ok_bind, c, true_and, and_self]
    cases en with
    | nil =>
      constructor
      · intro h; cases h
      · rintro ⟨-, e, es, h, -⟩; cases h
    | cons e es =>
      dsimp only
      by_cases c2 : e = (lit "true") → v ∈ cs
      · rw [if_pos c2]
        simp only [Res.ok_bind]
        constructor
        · intro h; cases h; exact ⟨rfl, e, es, rfl, c2⟩
        · rintro ⟨rfl, -⟩; rfl
      · rw [if_neg c2]
        constructor
        · intro h; cases h
        · rintro ⟨-, e', es', h, h2⟩; cases h; exact absurd h2 c2
  · rw [if_neg c]
    simp only [validAll_nil, Res.ok_bind]
    constructor
    · intro h; cases h
    · rintro ⟨-, h, -⟩; exact absurd h c

/-- What validating the path `v` leaves of the options of a file argument. -/
structure FileStep (fs : FS) (v : Str) (a b : ArgObj Str D) : Prop where
  must : ∀ m, ArgOpt b.ints (lit "PROPERTY_FILE_EXIST") (lit "FILE_MUST_EXIST") m ↔ ArgOpt a.ints (lit "PROPERTY_FILE_EXIST") (lit "FILE_MUST_EXIST") m
  exts : ∀ x, ArgOpt b.sets (lit "PROPERTY_FILE_EXT") (lit "ALLOWED_FILE_EXT") x ↔ ArgOpt a.sets (lit "PROPERTY_FILE_EXT") (lit "ALLOWED_FILE_EXT") x
  does : ArgOpt b.ints (lit "PROPERTY_FILE_EXIST") (lit "FILE_DOES_EXIST") 0 ↔
    ArgOpt a.ints (lit "PROPERTY_FILE_EXIST") (lit "FILE_DOES_EXIST") 0 ∧ fs v = false

/-- The path may be given for the file argument. -/
def FileOk (fs : FS) (v : Str) (a : ArgObj Str D) : Prop :=
  ∃ m exts dir core ext, ArgOpt a.ints (lit "PROPERTY_FILE_EXIST") (lit "FILE_MUST_EXIST") m ∧
    ArgOpt a.sets (lit "PROPERTY_FILE_EXT") (lit "ALLOWED_FILE_EXT") exts ∧ PathParts v dir core ext ∧ (ext ∈ exts ∨ ∃ t, '*' :: t ∈ exts) ∧
    (m ≠ 0 → fs v = true)

theorem file_valid {a : ArgObj Str D} (h : Reached newArgumentFile a) (fs : FS) (v : Str) (hf : Fits v) :
    (FileOk fs v a ∧ ∃ b, a.valid fs v = .ok b ∧ FileStep fs v a b) ∨ (¬ FileOk fs v a ∧ ∃ e, a.valid fs v = .throw e) := by
  obtain ⟨o, o2, o3, m, d, exts, sis, rfl, e1, e2, e3, e4⟩ := fileForm h
  obtain ⟨dir, core, ext, hp⟩ := PathParts.exists v
  have hv : fileExistVT.valid fs v o = if m ≠ 0 → fs v = true then .ok (if fs v = true then o.set (lit "FILE_DOES_EXIST") 1 else o) else .throw .invalidArgument := by
    show fileExistValid fs v o = _
    unfold fileExistValid
    rw [getOpt_some e1]
    simp only [Res.ok_bind]
    by_cases h1 : m = 0 <;> cases h2 : fs v <;> simp [h1]
  have hs : ∃ o3', sisterVT.valid fs v o3 = .ok o3' := by
    obtain ⟨h1, h2, h3, -, -⟩ := hp.file hf
    show ∃ o3', sisterValid fs v o3 = .ok o3'
    unfold sisterValid
    rw [h2, h1]; simp only [Res.ok_bind]
    rw [h3]; simp only [Res.ok_bind]
    rw [getOpt_some e4]; simp only [Res.ok_bind]
    exact ⟨_, rfl⟩
  obtain ⟨o3', hs⟩ := hs
  obtain ⟨x1, x2⟩ := C54_ext fs o2 exts (getOpt_some e3) hp hf
  have hr : FileOk fs v (⟨(lit "ARGUMENT_FILE"), [⟨fileExistVT, o⟩], [], [], [], [⟨fileExtVT, o2⟩], [⟨sisterVT, o3⟩]⟩ : ArgObj Str D) ↔
      (ext ∈ exts ∨ ∃ t, '*' :: t ∈ exts) ∧ (m ≠ 0 → fs v = true) := by
    unfold FileOk
    simp only [argOpt_one (show fileExistVT.name = (lit "PROPERTY_FILE_EXIST") from rfl), argOpt_one (show fileExtVT.name = (lit "PROPERTY_FILE_EXT") from rfl),
      e1, e3, Option.some.injEq]
    constructor
    · rintro ⟨_, _, d', c', x', rfl, rfl, hp', h1, h2⟩
      obtain ⟨-, -, rfl⟩ := hp.unique hp'
      exact ⟨h1, h2⟩
    · rintro ⟨h1, h2⟩; exact ⟨m, exts, dir, core, ext, rfl, rfl, hp, h1, h2⟩
  rw [hr]
  unfold ArgObj.valid
  dsimp only
  rw [validAll_one, validAll_one, validAll_one, hv, hs]
  simp only [validAll_nil, Res.ok_bind]
  by_cases c : m ≠ 0 → fs v = true
  · rw [if_pos c]
    simp only [Res.ok_bind]
    by_cases c2 : ext ∈ exts ∨ ∃ t, '*' :: t ∈ exts
    · rw [x1 c2]
      refine .inl ⟨⟨c2, c⟩, _, rfl, ?_⟩
      have n1 : (lit "FILE_MUST_EXIST") ≠ (lit "FILE_DOES_EXIST") := by decide
      refine ⟨fun m' => ?_, fun x => Iff.rfl, ?_⟩
      · simp only [argOpt_one (show fileExistVT.name = (lit "PROPERTY_FILE_EXIST") from rfl)]
        split
        · rw [Map.get_set_ne _ n1]
        · rfl
      · simp only [argOpt_one (show fileExistVT.name = (lit "PROPERTY_FILE_EXIST") from rfl)]
        cases fs v <;> simp
    · rw [x2 c2]
      exact .inr ⟨fun h => c2 h.1, _, rfl⟩
  · rw [if_neg c]
    exact .inr ⟨fun h => c h.2, _, rfl⟩

theorem switch_valid {a a' : ArgObj Str D} (h : Reached newArgumentSwitch a) (fs : FS) (v : Str) (e : a.valid fs v = .ok a') : a' = a := by
  obtain ⟨o, x, rfl, -⟩ := switchForm h
  unfold ArgObj.valid at e
  dsimp only at e
  rw [validAll_one] at e
  have hv : switchVT.valid fs v o = .ok o ∨ switchVT.valid fs v o = .throw .invalidArgument := by
    show switchValid fs v o = _ ∨ switchValid fs v o = _
    unfold switchValid
    split
    · exact .inr rfl
    · exact .inl rfl
  rcases hv with hv | hv
  · rw [hv] at e; cases e; rfl
  · rw [hv] at e; cases e

/-! ### One flag -/

omit [Dbl D] in
theorem resolve_stands {p : Parser D} (o : Orderly p) {t f : Str} (h : StandsFor p t f) : resolve p t = f := by
  unfold resolve
  rcases h with ⟨a, rfl⟩ | ⟨a, d, b⟩
  · obtain ⟨x, hx⟩ := Option.ne_none_iff_exists'.1 a
    rw [hx]
  · rw [a]
    dsimp only
    cases hf : p.flags.find? (fun f => f.2.1 == t) with
    | none =>
      rw [List.find?_eq_none] at hf
      exact absurd (by simp) (hf _ (Map.get_mem b))
    | some x =>
      dsimp only
      have h1 := get_of_mem o.nodup (List.mem_of_find?_eq_some hf)
      have h2 := List.find?_some hf
      simp only [beq_iff_eq] at h2
      exact o.short _ _ t x.2.2 d (by rw [h1, ← h2]) b

omit [Dbl D] in
theorem next_iff {p : Parser D} (o : Orderly p) (rest : List Str) :
    nextIsFlag p rest = true ↔ rest ≠ [] ∧ ∀ u ∈ rest.head?, ∃ g, StandsFor p u g := by
  cases rest with
  | nil => simp [nextIsFlag]
  | cons u us =>
    simp only [nextIsFlag, List.any_eq_true, Bool.or_eq_true, beq_iff_eq, List.head?_cons, Option.mem_def, Option.some.injEq, forall_eq', ne_eq,
      reduceCtorEq, not_false_eq_true, true_and]
    constructor
    · rintro ⟨x, hx, h⟩
      have hg := get_of_mem o.nodup hx
      rcases h with rfl | rfl
      · exact ⟨_, .inl ⟨by rw [hg]; simp, rfl⟩⟩
      · by_cases e : p.flags.get x.2.1 = none
        · exact ⟨x.1, .inr ⟨e, x.2.2, hg⟩⟩
        · exact ⟨_, .inl ⟨e, rfl⟩⟩
    · rintro ⟨g, ⟨a, -⟩ | ⟨-, d, b⟩⟩
      · obtain ⟨x, hx⟩ := Option.ne_none_iff_exists'.1 a
        exact ⟨_, Map.get_mem hx, .inl rfl⟩
      · exact ⟨_, Map.get_mem b, .inr rfl⟩

section
variable {fs : FS} {p : Parser D} {t : Str} (rest : List Str) (o : Orderly p)
include o

theorem oneArg_str {a : ArgObj Str D} (h : p.strArg.get (resolve p t) = some a) : parseArg fs p t rest =
    match rest with
    | [] => .throw .runtimeError
    | v :: _ => a.valid fs v >>= fun a' => .ok ({ p with strArg := p.strArg.set (resolve p t) a', strs := p.strs.set (resolve p t) v }, 1) := by
  have hk : HasArg p (resolve p t) .str := by simp [HasArg, h]
  have no : ∀ {k'}, ArgKind.str ≠ k' → ¬ HasArg p (resolve p t) k' := fun n b => n (o.one _ _ _ hk b)
  unfold parseArg
  generalize resolve p t = f at *
  have n1 : p.switchArg.get f = none := not_not.1 (no (k' := .switch) (by decide))
  have n2 : p.intArg.get f = none := not_not.1 (no (k' := .int) (by decide))
  have n3 : p.doubleArg.get f = none := not_not.1 (no (k' := .double) (by decide))
  have n4 : p.fileArg.get f = none := not_not.1 (no (k' := .file) (by decide))
  simp only [strStage, h, List.drop_zero]
  cases rest with
  | nil => rfl
  | cons v ts =>
    dsimp only
    cases a.valid fs v <;> simp [switchStage, intStage, doubleStage, fileStage, n1, n2, n3, n4] <;> rfl

theorem oneArg_switch {a : ArgObj Str D} (h : p.switchArg.get (resolve p t) = some a) : parseArg fs p t rest =
    if nextIsFlag p rest then .ok ({ p with ints := p.ints.set (resolve p t) 1 }, 0) else
    match rest with
    | [] => .ok ({ p with ints := p.ints.set (resolve p t) 1 }, 0)
    | v :: _ => a.valid fs v >>= fun a' => positive v >>= fun on => .ok ({ p with switchArg := p.switchArg.set (resolve p t) a', strs := p.strs.set (resolve p t) v, ints := p.ints.set (resolve p t) (if on then 1 else 0) }, 0) := by
  have hk : HasArg p (resolve p t) .switch := by simp [HasArg, h]
  have no : ∀ {k'}, ArgKind.switch ≠ k' → ¬ HasArg p (resolve p t) k' := fun n b => n (o.one _ _ _ hk b)
  unfold parseArg
  generalize resolve p t = f at *
  have n1 : p.strArg.get f = none := not_not.1 (no (k' := .str) (by decide))
  have n2 : p.intArg.get f = none := not_not.1 (no (k' := .int) (by decide))
  have n3 : p.doubleArg.get f = none := not_not.1 (no (k' := .double) (by decide))
  have n4 : p.fileArg.get f = none := not_not.1 (no (k' := .file) (by decide))
  simp only [strStage, n1, switchStage, h, List.drop_zero, Res.ok_bind]
  cases nextIsFlag p rest with
  | true => simp [intStage, doubleStage, fileStage, n2, n3, n4]
  | false =>
    cases rest with
    | nil => simp [intStage, doubleStage, fileStage, n2, n3, n4]
    | cons v ts =>
      simp only [Bool.not_false, if_true, Bool.false_eq_true, if_false]
      cases a.valid fs v with
      | ok a' => simp only [Res.ok_bind]; cases positive v <;> simp [intStage, doubleStage, fileStage, n2, n3, n4] <;> rfl
      | _ => rfl

theorem oneArg_int {a : ArgObj Int D} (h : p.intArg.get (resolve p t) = some a) : parseArg fs p t rest =
    match rest with
    | [] => .throw .runtimeError
    | v :: _ => stoi v >>= fun n => a.valid fs n >>= fun a' =>
      .ok ({ p with intArg := p.intArg.set (resolve p t) a', ints := p.ints.set (resolve p t) n }, 1) := by
  have hk : HasArg p (resolve p t) .int := by simp [HasArg, h]
  have no : ∀ {k'}, ArgKind.int ≠ k' → ¬ HasArg p (resolve p t) k' := fun n b => n (o.one _ _ _ hk b)
  unfold parseArg
  generalize resolve p t = f at *
  have n1 : p.strArg.get f = none := not_not.1 (no (k' := .str) (by decide))
  have n2 : p.switchArg.get f = none := not_not.1 (no (k' := .switch) (by decide))
  have n3 : p.doubleArg.get f = none := not_not.1 (no (k' := .double) (by decide))
  have n4 : p.fileArg.get f = none := not_not.1 (no (k' := .file) (by decide))
  simp only [strStage, n1, switchStage, n2, intStage, h, List.drop_zero, Res.ok_bind]
  cases rest with
  | nil => rfl
  | cons v ts =>
    dsimp only
    cases stoi v with
    | ok n => simp only [Res.ok_bind]; cases a.valid fs n <;> simp [doubleStage, fileStage, n3, n4]
    | _ => rfl

theorem oneArg_double {a : ArgObj D D} (h : p.doubleArg.get (resolve p t) = some a) : parseArg fs p t rest =
    match rest with
    | [] => .throw .runtimeError
    | v :: _ => Dbl.stod v >>= fun n => a.valid fs n >>= fun a' =>
      .ok ({ p with doubleArg := p.doubleArg.set (resolve p t) a', doubles := p.doubles.set (resolve p t) n }, 1) := by
  have hk : HasArg p (resolve p t) .double := by simp [HasArg, h]
  have no : ∀ {k'}, ArgKind.double ≠ k' → ¬ HasArg p (resolve p t) k' := fun n b => n (o.one _ _ _ hk b)
  unfold parseArg
  generalize resolve p t = f at *
  have n1 : p.strArg.get f = none := not_not.1 (no (k' := .str) (by decide))
  have n2 : p.switchArg.get f = none := not_not.1 (no (k' := .switch) (by decide))
  have n3 : p.intArg.get f = none := not_not.1 (no (k' := .int) (by decide))
  have n4 : p.fileArg.get f = none := not_not.1 (no (k' := .file) (by decide))
  simp only [strStage, n1, switchStage, n2, intStage, n3, doubleStage, h, List.drop_zero, Res.ok_bind]
  cases rest with
  | nil => rfl
  | cons v ts =>
    dsimp only
    cases (Dbl.stod v : Res D) with
    | ok n => simp only [Res.ok_bind]; cases a.valid fs n <;> simp [fileStage, n4]
    | _ => rfl

theorem oneArg_file {a : ArgObj Str D} (h : p.fileArg.get (resolve p t) = some a) : parseArg fs p t rest =
    match rest with
    | [] => .throw .runtimeError
    | v :: _ => a.valid fs v >>= fun a' => .ok ({ p with fileArg := p.fileArg.set (resolve p t) a', strs := p.strs.set (resolve p t) v }, 1) := by
  have hk : HasArg p (resolve p t) .file := by simp [HasArg, h]
  have no : ∀ {k'}, ArgKind.file ≠ k' → ¬ HasArg p (resolve p t) k' := fun n b => n (o.one _ _ _ hk b)
  unfold parseArg
  generalize resolve p t = f at *
  have n1 : p.strArg.get f = none := not_not.1 (no (k' := .str) (by decide))
  have n2 : p.switchArg.get f = none := not_not.1 (no (k' := .switch) (by decide))
  have n3 : p.intArg.get f = none := not_not.1 (no (k' := .int) (by decide))
  have n4 : p.doubleArg.get f = none := not_not.1 (no (k' := .double) (by decide))
  simp only [strStage, n1, switchStage, n2, intStage, n3, doubleStage, n4, fileStage, h, List.drop_zero, Res.ok_bind]
  cases rest with
  | nil => rfl
  | cons v ts =>
    dsimp only
    cases a.valid fs v <;> simp

omit o in
theorem oneArg_none (h : ∀ k, ¬ HasArg p (resolve p t) k) : parseArg fs p t rest = .throw .invalidArgument := by
  unfold parseArg
  generalize resolve p t = f at *
  have n0 : p.strArg.get f = none := not_not.1 (h .str)
  have n1 : p.switchArg.get f = none := not_not.1 (h .switch)
  have n2 : p.intArg.get f = none := not_not.1 (h .int)
  have n3 : p.doubleArg.get f = none := not_not.1 (h .double)
  have n4 : p.fileArg.get f = none := not_not.1 (h .file)
  simp [strStage, switchStage, intStage, doubleStage, fileStage, n0, n1, n2, n3, n4]

end

/-! ### What reading changes of the rules -/

/-- The rules a parser has after reading `as`. -/
structure RulesAfter (fs : FS) (p : Parser D) (as : List (Str × Option Str)) (q : Parser D) : Prop where
  flags : q.flags = p.flags
  ints : ∀ g, q.intArg.get g = p.intArg.get g
  doubles : ∀ g, q.doubleArg.get g = p.doubleArg.get g
  strs : ∀ g, q.strArg.get g = p.strArg.get g
  switches : ∀ g, q.switchArg.get g = p.switchArg.get g
  files : ∀ g, (p.fileArg.get g = none ∧ q.fileArg.get g = none) ∨ ∃ a b, p.fileArg.get g = some a ∧ q.fileArg.get g = some b ∧
    (∀ m, ArgOpt b.ints (lit "PROPERTY_FILE_EXIST") (lit "FILE_MUST_EXIST") m ↔ ArgOpt a.ints (lit "PROPERTY_FILE_EXIST") (lit "FILE_MUST_EXIST") m) ∧
    (∀ x, ArgOpt b.sets (lit "PROPERTY_FILE_EXT") (lit "ALLOWED_FILE_EXT") x ↔ ArgOpt a.sets (lit "PROPERTY_FILE_EXT") (lit "ALLOWED_FILE_EXT") x) ∧
    (ArgOpt b.ints (lit "PROPERTY_FILE_EXIST") (lit "FILE_DOES_EXIST") 0 ↔
      ArgOpt a.ints (lit "PROPERTY_FILE_EXIST") (lit "FILE_DOES_EXIST") 0 ∧ ∀ v, (g, some v) ∈ as → fs v = false)

omit [Dbl D] in
theorem RulesAfter.same {fs : FS} {p q : Parser D} {as : List (Str × Option Str)} (h : RulesAfter fs p as q) : SameSetup p q := by
  refine ⟨h.flags, fun f k => ?_⟩
  cases k <;> simp only [HasArg]
  · rw [h.strs]
  · rw [h.switches]
  · rw [h.ints]
  · rw [h.doubles]
  · rcases h.files f with ⟨a, b⟩ | ⟨a, b, e1, e2, -⟩
    · rw [a, b]
    · rw [e1, e2]; simp

omit [Dbl D] in
theorem RulesAfter.refl (fs : FS) (p : Parser D) : RulesAfter fs p [] p := by
  refine ⟨rfl, fun _ => rfl, fun _ => rfl, fun _ => rfl, fun _ => rfl, fun g => ?_⟩
  cases h : p.fileArg.get g with
  | none => exact .inl ⟨rfl, rfl⟩
  | some a => exact .inr ⟨a, a, rfl, rfl, fun _ => Iff.rfl, fun _ => Iff.rfl, by simp⟩

omit [Dbl D] in
theorem RulesAfter.trans {fs : FS} {p q r : Parser D} {as bs : List (Str × Option Str)} (h : RulesAfter fs p as q) (h' : RulesAfter fs q bs r) :
    RulesAfter fs p (as ++ bs) r := by
  refine ⟨h'.flags.trans h.flags, fun g => (h'.ints g).trans (h.ints g), fun g => (h'.doubles g).trans (h.doubles g),
    fun g => (h'.strs g).trans (h.strs g), fun g => (h'.switches g).trans (h.switches g), fun g => ?_⟩
  rcases h.files g with ⟨a, b⟩ | ⟨a, b, e1, e2, e3, e4, e5⟩
  · rcases h'.files g with ⟨c, d⟩ | ⟨c, d, e, -⟩
    · exact .inl ⟨a, d⟩
    · rw [b] at e; cases e
  · rcases h'.files g with ⟨c, d⟩ | ⟨b', c, f1, f2, f3, f4, f5⟩
    · rw [c] at e2; cases e2
    · rw [e2] at f1; cases f1
      refine .inr ⟨a, c, e1, f2, fun m => (f3 m).trans (e3 m), fun x => (f4 x).trans (e4 x), ?_⟩
      rw [f5, e5]
      constructor
      · rintro ⟨⟨x, y⟩, z⟩
        refine ⟨x, fun v hv => ?_⟩
        rcases List.mem_append.1 hv with hv | hv
        · exact y v hv
        · exact z v hv
      · rintro ⟨x, y⟩
        exact ⟨⟨x, fun v hv => y v (List.mem_append_left _ hv)⟩, fun v hv => y v (List.mem_append_right _ hv)⟩

theorem RulesAfter.acceptable {fs fs' : FS} {p q : Parser D} {as : List (Str × Option Str)} (h : RulesAfter fs p as q) (f v : Str) :
    Acceptable fs' q f v ↔ Acceptable fs' p f v := by
  constructor
  · intro k
    cases k with
    | int a => exact .int (by rw [← h.ints]; exact a) ‹_› ‹_› ‹_› ‹_› ‹_›
    | double a => exact .double (by rw [← h.doubles]; exact a) ‹_› ‹_› ‹_› ‹_› ‹_›
    | str a h1 h2 h3 h4 h5 h6 => exact .str (by rw [← h.strs]; exact a) h1 h2 h3 h4 h5 h6
    | file a h1 h2 h3 h4 h5 =>
      rcases h.files f with ⟨c, d⟩ | ⟨x, y, e1, e2, e3, e4, -⟩
      · rw [d] at a; cases a
      · rw [e2] at a; cases a
        exact .file e1 ((e3 _).1 h1) ((e4 _).1 h2) h3 h4 h5
  · intro k
    cases k with
    | int a => exact .int (by rw [h.ints]; exact a) ‹_› ‹_› ‹_› ‹_› ‹_›
    | double a => exact .double (by rw [h.doubles]; exact a) ‹_› ‹_› ‹_› ‹_› ‹_›
    | str a h1 h2 h3 h4 h5 h6 => exact .str (by rw [h.strs]; exact a) h1 h2 h3 h4 h5 h6
    | file a h1 h2 h3 h4 h5 =>
      rcases h.files f with ⟨c, d⟩ | ⟨x, y, e1, e2, e3, e4, -⟩
      · rw [c] at a; cases a
      · rw [e1] at a; cases a
        exact .file e2 ((e3 _).2 h1) ((e4 _).2 h2) h3 h4 h5

theorem RulesAfter.fine {fs fs' : FS} {p q : Parser D} {as : List (Str × Option Str)} (h : RulesAfter fs p as q) (args : List Str)
    (bs : List (Str × Option Str)) : Fine fs' q args bs ↔ Fine fs' p args bs := by
  have st : ∀ t f, StandsFor q t f ↔ StandsFor p t f := by intro t f; unfold StandsFor; rw [h.flags]
  constructor
  · intro k
    induction k with
    | nil => exact .nil
    | info hi _ ih => exact .info hi ih
    | value hi hv hs ha _ ih => exact .value hi hv ((st _ _).1 hs) ((h.acceptable _ _).1 ha) ih
    | switch hi hv hs ha hn _ ih =>
      exact .switch hi hv ((st _ _).1 hs) ((h.same.kind _ _).1 ha) (fun u hu => (hn u hu).imp (fun g hg => (st _ _).1 hg)) ih
  · intro k
    induction k with
    | nil => exact .nil
    | info hi _ ih => exact .info hi ih
    | value hi hv hs ha _ ih => exact .value hi hv ((st _ _).2 hs) ((h.acceptable _ _).2 ha) ih
    | switch hi hv hs ha hn _ ih =>
      exact .switch hi hv ((st _ _).2 hs) ((h.same.kind _ _).2 ha) (fun u hu => (hn u hu).imp (fun g hg => (st _ _).2 hg)) ih

theorem Acceptable.kind {fs : FS} {p : Parser D} {f v : Str} (h : Acceptable fs p f v) : ∃ k, HasArg p f k ∧ k ≠ .switch := by
  cases h with
  | int a => exact ⟨.int, by simp [HasArg, a], by decide⟩
  | double a => exact ⟨.double, by simp [HasArg, a], by decide⟩
  | str a => exact ⟨.str, by simp [HasArg, a], by decide⟩
  | file a => exact ⟨.file, by simp [HasArg, a], by decide⟩

theorem Fine.says {fs : FS} {p : Parser D} {args : List Str} {as : List (Str × Option Str)} (h : Fine fs p args as) : Says p args as := by
  induction h with
  | nil => exact .nil
  | info hi _ ih => exact .info hi ih
  | value hi hv hs ha _ ih => obtain ⟨k, h1, h2⟩ := ha.kind; exact .value hi hv hs h1 h2 ih
  | switch hi hv hs ha _ _ ih => exact .switch hi hv hs ha ih

omit [Dbl D] in
theorem get_set_same {V : Type} {m : Map V} {f : Str} {a : V} (h : m.get f = some a) (g : Str) : (m.set f a).get g = m.get g := by
  rw [Map.get_set]; split
  · subst_vars; exact h.symm
  · rfl

omit [Dbl D] in
theorem stoi_fits {v : Str} {n : Int} (h : stoi v = .ok n) : -2 ^ 31 ≤ n ∧ n < 2 ^ 31 := by
  obtain ⟨-, h2, -⟩ := C67_stoi v
  by_contra r
  rw [h2 n (intText_of_stoi h) r] at h; cases h

/-- What `parseArg_` does, for every token in the place of a flag. -/
theorem step_outcome (fs : FS) {p : Parser D} (o : Orderly p) (ok : ArgsOk p) (t : Str) (rest : List Str) (hfit : ∀ v ∈ rest, Fits v) :
    (∃ f v ts q, rest = v :: ts ∧ StandsFor p t f ∧ Acceptable fs p f v ∧ parseArg fs p t rest = .ok (q, 1) ∧ RulesAfter fs p [(f, some v)] q) ∨
    (∃ f q, StandsFor p t f ∧ HasArg p f .switch ∧ (∀ u ∈ rest.head?, ∃ g, StandsFor p u g) ∧ parseArg fs p t rest = .ok (q, 0) ∧
      RulesAfter fs p [(f, none)] q) ∨
    ((¬ ∃ f, StandsFor p t f ∧ ((∃ v, v ∈ rest.head? ∧ Acceptable fs p f v) ∨ (HasArg p f .switch ∧ ∀ u ∈ rest.head?, ∃ g, StandsFor p u g))) ∧
      ((∀ r, parseArg fs p t rest ≠ .ok r) ∨
        ∃ v ts q, rest = v :: ts ∧ v ∉ infoTokens ∧ v ∉ versionTokens ∧ (∀ k, ¬ HasArg q (resolve q v) k) ∧ parseArg fs p t rest = .ok (q, 0))) := by
  have fin : ∀ k, HasArg p (resolve p t) k → k ≠ .switch → (∀ r, parseArg fs p t rest ≠ .ok r) → (∀ v, v ∈ rest.head? → ¬ Acceptable fs p (resolve p t) v) →
      ((¬ ∃ f, StandsFor p t f ∧ ((∃ v, v ∈ rest.head? ∧ Acceptable fs p f v) ∨ (HasArg p f .switch ∧ ∀ u ∈ rest.head?, ∃ g, StandsFor p u g))) ∧
      ((∀ r, parseArg fs p t rest ≠ .ok r) ∨
        ∃ v ts q, rest = v :: ts ∧ v ∉ infoTokens ∧ v ∉ versionTokens ∧ (∀ k, ¬ HasArg q (resolve q v) k) ∧ parseArg fs p t rest = .ok (q, 0))) := by
    intro k hk hns hr hn
    refine ⟨?_, .inl hr⟩
    rintro ⟨f, hs, h⟩
    obtain rfl := resolve_stands o hs
    rcases h with ⟨v, hv, ha⟩ | ⟨ha, -⟩
    · exact hn v hv ha
    · exact hns (o.one _ _ _ hk ha)
  by_cases hk : ∃ k, HasArg p (resolve p t) k
  swap
  · replace hk : ∀ k, ¬ HasArg p (resolve p t) k := fun k h => hk ⟨k, h⟩
    refine .inr (.inr ⟨?_, .inl fun r => by rw [oneArg_none rest hk]; exact fun h => by cases h⟩)
    rintro ⟨f, hs, h⟩
    obtain rfl := resolve_stands o hs
    rcases h with ⟨v, -, ha⟩ | ⟨ha, -⟩
    · obtain ⟨k, h, -⟩ := ha.kind; exact hk k h
    · exact hk _ ha
  obtain ⟨k, hk⟩ := hk
  have hs := stands_resolve o hk
  have uniq : ∀ k', HasArg p (resolve p t) k' → k' = k := fun k' h => o.one _ _ _ h hk
  cases k with
  | str =>
    obtain ⟨a, ha⟩ := Option.ne_none_iff_exists'.1 hk
    have n4 : p.fileArg.get (resolve p t) = none := not_not.1 (fun h => by have := uniq .file h; cases this)
    cases rest with
    | nil => exact .inr (.inr (fin .str hk (by decide) (fun r => by rw [oneArg_str _ o ha]; exact fun h => by cases h) (fun v hv => by cases hv)))
    | cons v ts =>
      have e := oneArg_str (fs := fs) (v :: ts) o ha
      dsimp only at e
      by_cases hv : ∃ a', a.valid fs v = .ok a'
      · obtain ⟨a', hv⟩ := hv
        rw [hv] at e
        obtain ⟨rfl, lo, hi, en, es, cs, h1, h2, h3, h4, h5, h6⟩ := (str_valid (ok.strs _ _ ha) fs v a').1 hv
        refine .inl ⟨_, v, ts, _, rfl, hs, .str ha h1 h2 h3 h4 h5 h6, e, rfl, fun _ => rfl, fun _ => rfl, fun g => get_set_same ha g, fun _ => rfl, fun g => ?_⟩
        dsimp only
        cases hg : p.fileArg.get g with
        | none => exact .inl ⟨rfl, rfl⟩
        | some b =>
          refine .inr ⟨b, b, rfl, rfl, fun _ => Iff.rfl, fun _ => Iff.rfl, ?_⟩
          have : g ≠ resolve p t := by rintro rfl; rw [n4] at hg; cases hg
          simp [this]
      · refine .inr (.inr (fin .str hk (by decide) (fun r => ?_) (fun w hw h => ?_)))
        · rw [e]; intro h; obtain ⟨a', h, -⟩ := Res.bind_eq_ok.1 h; exact hv ⟨a', h⟩
        · cases hw
          cases h with
          | str ha' h1 h2 h3 h4 h5 h6 =>
            rw [ha] at ha'; cases ha'
            exact hv ⟨a, (str_valid (ok.strs _ _ ha) fs v a).2 ⟨rfl, _, _, _, _, _, h1, h2, h3, h4, h5, h6⟩⟩
          | int ha' => have := uniq .int (by simp [HasArg, ha']); cases this
          | double ha' => have := uniq .double (by simp [HasArg, ha']); cases this
          | file ha' => have := uniq .file (by simp [HasArg, ha']); cases this
  | int =>
    obtain ⟨a, ha⟩ := Option.ne_none_iff_exists'.1 hk
    have n4 : p.fileArg.get (resolve p t) = none := not_not.1 (fun h => by have := uniq .file h; cases this)
    cases rest with
    | nil => exact .inr (.inr (fin .int hk (by decide) (fun r => by rw [oneArg_int _ o ha]; exact fun h => by cases h) (fun v hv => by cases hv)))
    | cons v ts =>
      have e := oneArg_int (fs := fs) (v :: ts) o ha
      dsimp only at e
      by_cases hv : ∃ n a', stoi v = .ok n ∧ a.valid fs n = .ok a'
      · obtain ⟨n, a', hn, hv⟩ := hv
        rw [hn, Res.ok_bind, hv] at e
        obtain ⟨rfl, lo, hi, h1, h2, h3, h4⟩ := (int_valid (ok.ints _ _ ha) fs n a').1 hv
        refine .inl ⟨_, v, ts, _, rfl, hs, .int ha h1 h2 (intText_of_stoi hn) (stoi_fits hn) ⟨h3, h4⟩, e, rfl, fun g => get_set_same ha g, fun _ => rfl, fun _ => rfl, fun _ => rfl, fun g => ?_⟩
        dsimp only
        cases hg : p.fileArg.get g with
        | none => exact .inl ⟨rfl, rfl⟩
        | some b =>
          refine .inr ⟨b, b, rfl, rfl, fun _ => Iff.rfl, fun _ => Iff.rfl, ?_⟩
          have : g ≠ resolve p t := by rintro rfl; rw [n4] at hg; cases hg
          simp [this]
      · refine .inr (.inr (fin .int hk (by decide) (fun r => ?_) (fun w hw h => ?_)))
        · rw [e]; intro h
          obtain ⟨n, hn, h⟩ := Res.bind_eq_ok.1 h
          obtain ⟨a', h, -⟩ := Res.bind_eq_ok.1 h; exact hv ⟨n, a', hn, h⟩
        · cases hw
          cases h with
          | int ha' h1 h2 h3 h4 h5 =>
            rw [ha] at ha'; cases ha'
            exact hv ⟨_, a, (C67_stoi v).1 _ h3 h4, (int_valid (ok.ints _ _ ha) fs _ a).2 ⟨rfl, _, _, h1, h2, h5.1, h5.2⟩⟩
          | str ha' => have := uniq .str (by simp [HasArg, ha']); cases this
          | double ha' => have := uniq .double (by simp [HasArg, ha']); cases this
          | file ha' => have := uniq .file (by simp [HasArg, ha']); cases this
  | double =>
    obtain ⟨a, ha⟩ := Option.ne_none_iff_exists'.1 hk
    have n4 : p.fileArg.get (resolve p t) = none := not_not.1 (fun h => by have := uniq .file h; cases this)
    cases rest with
    | nil => exact .inr (.inr (fin .double hk (by decide) (fun r => by rw [oneArg_double _ o ha]; exact fun h => by cases h) (fun v hv => by cases hv)))
    | cons v ts =>
      have e := oneArg_double (fs := fs) (v :: ts) o ha
      dsimp only at e
      by_cases hv : ∃ n a', Dbl.stod v = .ok n ∧ a.valid fs n = .ok a'
      · obtain ⟨n, a', hn, hv⟩ := hv
        rw [hn, Res.ok_bind, hv] at e
        obtain ⟨rfl, lo, hi, h1, h2, h3, h4⟩ := (double_valid (ok.doubles _ _ ha) fs n a').1 hv
        refine .inl ⟨_, v, ts, _, rfl, hs, .double ha h1 h2 hn h3 h4, e, rfl, fun _ => rfl, fun g => get_set_same ha g, fun _ => rfl, fun _ => rfl, fun g => ?_⟩
        dsimp only
        cases hg : p.fileArg.get g with
        | none => exact .inl ⟨rfl, rfl⟩
        | some b =>
          refine .inr ⟨b, b, rfl, rfl, fun _ => Iff.rfl, fun _ => Iff.rfl, ?_⟩
          have : g ≠ resolve p t := by rintro rfl; rw [n4] at hg; cases hg
          simp [this]
      · refine .inr (.inr (fin .double hk (by decide) (fun r => ?_) (fun w hw h => ?_)))
        · rw [e]; intro h
          obtain ⟨n, hn, h⟩ := Res.bind_eq_ok.1 h
          obtain ⟨a', h, -⟩ := Res.bind_eq_ok.1 h; exact hv ⟨n, a', hn, h⟩
        · cases hw
          cases h with
          | double ha' h1 h2 h3 h4 h5 =>
            rw [ha] at ha'; cases ha'
            exact hv ⟨_, a, h3, (double_valid (ok.doubles _ _ ha) fs _ a).2 ⟨rfl, _, _, h1, h2, h4, h5⟩⟩
          | str ha' => have := uniq .str (by simp [HasArg, ha']); cases this
          | int ha' => have := uniq .int (by simp [HasArg, ha']); cases this
          | file ha' => have := uniq .file (by simp [HasArg, ha']); cases this
  | file =>
    obtain ⟨a, ha⟩ := Option.ne_none_iff_exists'.1 hk
    cases rest with
    | nil => exact .inr (.inr (fin .file hk (by decide) (fun r => by rw [oneArg_file _ o ha]; exact fun h => by cases h) (fun v hv => by cases hv)))
    | cons v ts =>
      have e := oneArg_file (fs := fs) (v :: ts) o ha
      dsimp only at e
      rcases file_valid (ok.files _ _ ha) fs v (hfit v (by simp)) with ⟨⟨m, exts, dir, core, ext, h1, h2, h3, h4, h5⟩, b, hv, st⟩ | ⟨hn, er, hv⟩
      · rw [hv] at e
        refine .inl ⟨_, v, ts, _, rfl, hs, .file ha h1 h2 h3 h4 h5, e, rfl, fun _ => rfl, fun _ => rfl, fun _ => rfl, fun _ => rfl, fun g => ?_⟩
        dsimp only
        rw [Map.get_set]
        by_cases hg : g = resolve p t
        · rw [if_pos hg, hg]
          refine .inr ⟨a, b, ha, rfl, st.must, st.exts, ?_⟩
          rw [st.does]; simp
        · rw [if_neg hg]
          cases hg' : p.fileArg.get g with
          | none => exact .inl ⟨rfl, rfl⟩
          | some b => exact .inr ⟨b, b, rfl, rfl, fun _ => Iff.rfl, fun _ => Iff.rfl, by simp [hg]⟩
      · refine .inr (.inr (fin .file hk (by decide) (fun r => ?_) (fun w hw h => ?_)))
        · rw [e, hv]; intro h; cases h
        · cases hw
          cases h with
          | file ha' h1 h2 h3 h4 h5 =>
            rw [ha] at ha'; cases ha'
            exact hn ⟨_, _, _, _, _, h1, h2, h3, h4, h5⟩
          | str ha' => have := uniq .str (by simp [HasArg, ha']); cases this
          | int ha' => have := uniq .int (by simp [HasArg, ha']); cases this
          | double ha' => have := uniq .double (by simp [HasArg, ha']); cases this
  | switch =>
    obtain ⟨a, ha⟩ := Option.ne_none_iff_exists'.1 hk
    have n4 : p.fileArg.get (resolve p t) = none := not_not.1 (fun h => by have := uniq .file h; cases this)
    have e := oneArg_switch (fs := fs) rest o ha
    have files : ∀ (w : Option Str) g, (p.fileArg.get g = none ∧ p.fileArg.get g = none) ∨ ∃ a b, p.fileArg.get g = some a ∧ p.fileArg.get g = some b ∧
        (∀ m, ArgOpt b.ints (lit "PROPERTY_FILE_EXIST") (lit "FILE_MUST_EXIST") m ↔ ArgOpt a.ints (lit "PROPERTY_FILE_EXIST") (lit "FILE_MUST_EXIST") m) ∧
        (∀ x, ArgOpt b.sets (lit "PROPERTY_FILE_EXT") (lit "ALLOWED_FILE_EXT") x ↔ ArgOpt a.sets (lit "PROPERTY_FILE_EXT") (lit "ALLOWED_FILE_EXT") x) ∧
        (ArgOpt b.ints (lit "PROPERTY_FILE_EXIST") (lit "FILE_DOES_EXIST") 0 ↔
          ArgOpt a.ints (lit "PROPERTY_FILE_EXIST") (lit "FILE_DOES_EXIST") 0 ∧ ∀ v, (g, some v) ∈ [(resolve p t, w)] → fs v = false) := by
      intro w g
      cases hg : p.fileArg.get g with
      | none => exact .inl ⟨rfl, rfl⟩
      | some b =>
        refine .inr ⟨b, b, rfl, rfl, fun _ => Iff.rfl, fun _ => Iff.rfl, ?_⟩
        have : g ≠ resolve p t := by rintro rfl; rw [n4] at hg; cases hg
        simp [this]
    by_cases hn : nextIsFlag p rest = true
    · rw [if_pos hn] at e
      exact .inr (.inl ⟨_, _, hs, hk, ((next_iff o rest).1 hn).2, e, rfl, fun _ => rfl, fun _ => rfl, fun _ => rfl, fun _ => rfl, files none⟩)
    · rw [if_neg hn] at e
      cases rest with
      | nil =>
        dsimp only at e
        exact .inr (.inl ⟨_, _, hs, hk, (fun u hu => by cases hu), e, rfl, fun _ => rfl, fun _ => rfl, fun _ => rfl, fun _ => rfl, files none⟩)
      | cons v ts =>
        dsimp only at e
        have nof : ¬ ∃ g, StandsFor p v g := by
          intro h
          exact hn ((next_iff o (v :: ts)).2 ⟨by simp, by rintro u hu; cases hu; exact h⟩)
        refine .inr (.inr ⟨?_, ?_⟩)
        · rintro ⟨f, hs', ⟨w, hw, ha'⟩ | ⟨-, h⟩⟩
          · obtain rfl := resolve_stands o hs'
            obtain ⟨k, h1, h2⟩ := ha'.kind
            exact h2 (uniq k h1)
          · exact nof (h v rfl)
        · by_cases hv : ∃ a' on, a.valid fs v = .ok a' ∧ positive v = .ok on
          · right
            obtain ⟨a', on, h1, h2⟩ := hv
            rw [h1, Res.ok_bind, h2, Res.ok_bind] at e
            obtain ⟨w1, w2⟩ := switch_words h2
            refine ⟨v, ts, _, rfl, w1, w2, fun k hk' => ?_, e⟩
            obtain rfl := switch_valid (ok.switches _ _ ha) fs v h1
            have hk'' : HasArg p (resolve p v) k := by
              cases k with
              | switch => show p.switchArg.get (resolve p v) ≠ none; rw [← get_set_same ha]; exact hk'
              | _ => exact hk'
            exact nof ⟨_, stands_resolve o hk''⟩
          · left
            intro r
            rw [e]; intro h
            obtain ⟨a', h1, h⟩ := Res.bind_eq_ok.1 h
            obtain ⟨on, h2, -⟩ := Res.bind_eq_ok.1 h
            exact hv ⟨a', on, h1, h2⟩

/-! ### The whole command line -/

theorem loop_accepts {fs : FS} {size : Nat} (n : Nat) : ∀ (args : List Str), args.length ≤ n → (∀ v ∈ args, Fits v) → ∀ (p : Parser D) (allowed : Nat),
    Orderly p → ArgsOk p → allowed + args.length ≤ size + 1 → allowed ≤ size →
    (∀ q, parseLoop fs size 0 allowed p args = .ok q →
      ∃ as, Fine fs p args as ∧ (allowed + args.length = size + 1 → as ≠ []) ∧ RulesAfter fs p as q) ∧
    ∀ as, Fine fs p args as → (allowed + args.length = size + 1 → as ≠ []) → ∃ q, parseLoop fs size 0 allowed p args = .ok q := by
  induction n with
  | zero =>
    intro args hl _ p allowed o ok h1 h2
    obtain rfl : args = [] := by simpa using hl
    refine ⟨fun q h => ?_, fun as h _ => ⟨p, rfl⟩⟩
    cases h
    exact ⟨[], .nil, (by simp only [List.length_nil]; omega), .refl _ _⟩
  | succ n ih =>
    intro args hl hfit p allowed o ok h1 h2
    cases args with
    | nil =>
      refine ⟨fun q h => ?_, fun as h _ => ⟨p, rfl⟩⟩
      cases h
      exact ⟨[], .nil, (by simp only [List.length_nil]; omega), .refl _ _⟩
    | cons t ts =>
      have hl' : ts.length ≤ n := by simpa using hl
      have hfit' : ∀ v ∈ ts, Fits v := fun v hv => hfit v (by simp [hv])
      simp only [List.length_cons] at h1
      by_cases hi : t ∈ infoTokens
      · -- an information token
        have e : parseLoop fs size 0 allowed p (t :: ts) = if allowed = size then .exit 0 else parseLoop fs size 0 (allowed + 1) p ts := by
          simp only [infoTokens, List.mem_cons, List.not_mem_nil, or_false] at hi
          conv => lhs; unfold parseLoop
          rcases hi with rfl | rfl | rfl | rfl
          · rw [if_pos (.inl rfl)]
          · rw [if_pos (.inr rfl)]
          · rw [if_neg (by decide), if_neg (by decide), if_pos (.inl rfl)]
          · rw [if_neg (by decide), if_neg (by decide), if_pos (.inr rfl)]
        rw [e]
        by_cases ha : allowed = size
        · rw [if_pos ha]
          refine ⟨fun q h => (by cases h), fun as h hne => ?_⟩
          exfalso
          obtain rfl : ts = [] := by
            have : ts.length = 0 := by omega
            simpa using this
          cases h with
          | info _ h => cases h; exact hne (by simp only [List.length_cons, List.length_nil]; omega) rfl
          | switch hn => exact hn hi
        · rw [if_neg ha]
          obtain ⟨a, b⟩ := ih ts hl' hfit' p (allowed + 1) o ok (by omega) (by omega)
          refine ⟨fun q h => ?_, fun as h hne => ?_⟩
          · obtain ⟨as, h1, h2, h3⟩ := a q h
            exact ⟨as, .info hi h1, (fun hh => h2 (by simp only [List.length_cons] at hh; omega)), h3⟩
          · cases h with
            | info _ h => exact b _ h (fun hh => hne (by simp only [List.length_cons]; omega))
            | value hn => exact absurd hi hn
            | switch hn => exact absurd hi hn
      · by_cases hv : t ∈ versionTokens
        · have e : parseLoop fs size 0 allowed p (t :: ts) = .exit 0 := by
            simp only [versionTokens, List.mem_cons, List.not_mem_nil, or_false] at hv
            conv => lhs; unfold parseLoop
            rcases hv with rfl | rfl
            · rw [if_neg (by decide), if_pos (.inl rfl)]
            · rw [if_neg (by decide), if_pos (.inr rfl)]
          rw [e]
          refine ⟨fun q h => (by cases h), fun as h _ => ?_⟩
          cases h with
          | info h => exact absurd h hi
          | value _ h => exact absurd hv h
          | switch _ h => exact absurd hv h
        · have unf : ∀ (p : Parser D) (t : Str) (ts : List Str), t ∉ infoTokens → t ∉ versionTokens → parseLoop fs size 0 allowed p (t :: ts) =
              (parseArg fs p t ts >>= fun r => parseLoop fs size r.2 allowed r.1 ts) := by
            intro p t ts hi hv
            simp only [infoTokens, versionTokens, List.mem_cons, List.not_mem_nil, or_false, not_or] at hi hv
            conv => lhs; unfold parseLoop
            rw [if_neg (by rintro (e | e); exacts [hi.1 e, hi.2.1 e]), if_neg (by rintro (e | e); exacts [hv.1 e, hv.2 e]),
              if_neg (by rintro (e | e); exacts [hi.2.2.1 e, hi.2.2.2 e])]
          rw [unf p t ts hi hv]
          rcases step_outcome fs o ok t ts hfit' with ⟨f, v, us, q1, rfl, hs, hacc, e, ra⟩ | ⟨f, q1, hs, hsw, hn, e, ra⟩ | ⟨hno, hbad⟩
          · rw [e, Res.ok_bind]
            dsimp only
            have sk : parseLoop fs size 1 allowed q1 (v :: us) = parseLoop fs size 0 allowed q1 us := by
              conv => lhs; unfold parseLoop
            rw [sk]
            simp only [List.length_cons] at h1 hl'
            obtain ⟨a, b⟩ := ih us (by omega) (fun w hw => hfit' w (by simp [hw])) q1 allowed (ra.same.orderly o) (argsOk_parseArg ok e) (by omega) h2
            refine ⟨fun q h => ?_, fun as h _ => ?_⟩
            · obtain ⟨as, c1, -, c3⟩ := a q h
              exact ⟨(f, some v) :: as, .value hi hv hs hacc ((ra.fine _ _).1 c1), (fun _ h => by cases h), ra.trans c3⟩
            · cases h with
              | info h => exact absurd h hi
              | value _ _ _ _ h => exact b _ ((ra.fine _ _).2 h) (fun hh => by omega)
              | switch _ _ hs' ha' =>
                obtain ⟨k, k1, k2⟩ := hacc.kind
                rw [hs'.unique o hs] at ha'
                exact absurd (o.one _ _ _ k1 ha') k2
          · rw [e, Res.ok_bind]
            dsimp only
            obtain ⟨a, b⟩ := ih ts hl' hfit' q1 allowed (ra.same.orderly o) (argsOk_parseArg ok e) (by omega) h2
            refine ⟨fun q h => ?_, fun as h _ => ?_⟩
            · obtain ⟨as, c1, -, c3⟩ := a q h
              exact ⟨(f, none) :: as, .switch hi hv hs hsw hn ((ra.fine _ _).1 c1), (fun _ h => by cases h), ra.trans c3⟩
            · cases h with
              | info h => exact absurd h hi
              | value _ _ hs' ha' _ =>
                obtain ⟨k, k1, k2⟩ := ha'.kind
                rw [hs'.unique o hs] at k1
                exact absurd (o.one _ _ _ k1 hsw) k2
              | switch _ _ _ _ _ h => exact b _ ((ra.fine _ _).2 h) (fun hh => by omega)
          · refine ⟨fun q h => ?_, fun as h _ => ?_⟩
            · exfalso
              rcases hbad with hbad | ⟨v, us, q1, rfl, n1, n2, n3, e⟩
              · obtain ⟨r, hr, -⟩ := Res.bind_eq_ok.1 h
                exact hbad r hr
              · rw [e, Res.ok_bind] at h
                dsimp only at h
                rw [unf q1 v us n1 n2, oneArg_none us n3] at h
                cases h
            · exfalso
              cases h with
              | info h => exact hi h
              | value _ _ hs' ha' _ => exact hno ⟨_, hs', .inl ⟨_, rfl, ha'⟩⟩
              | switch _ _ hs' ha' hn' _ => exact hno ⟨_, hs', .inr ⟨ha', hn'⟩⟩

/-! ### The final check -/

omit [Dbl D] in
theorem post_fold {S : Type} {m : Map (ArgObj S D)} (hm : ∀ x ∈ m, x.2.post = .ok () ∨ x.2.post = .throw .runtimeError) :
    (m.foldlM (fun _ a => a.2.post) () = Res.ok () ∧ ∀ x ∈ m, x.2.post = .ok ()) ∨
    (m.foldlM (fun _ a => a.2.post) () = Res.throw .runtimeError ∧ ∃ x ∈ m, x.2.post ≠ .ok ()) := by
  induction m with
  | nil => exact .inl ⟨rfl, fun x hx => by cases hx⟩
  | cons x m ih =>
    rw [List.foldlM_cons]
    rcases hm x (by simp) with h | h
    · rw [h, Res.ok_bind]
      rcases ih (fun y hy => hm y (by simp [hy])) with ⟨a, b⟩ | ⟨a, y, hy, b⟩
      · refine .inl ⟨a, fun y hy => ?_⟩
        rcases List.mem_cons.1 hy with rfl | hy
        · exact h
        · exact b y hy
      · exact .inr ⟨a, y, by simp [hy], b⟩
    · rw [h]
      exact .inr ⟨rfl, x, by simp, by rw [h]; intro h; cases h⟩

omit [Dbl D] in
theorem AllFrom.stems_mem {S : Type} {new : ArgObj S D} {m : Map (ArgObj S D)} (h : AllFrom new m) {x : Str × ArgObj S D} (hx : x ∈ m) :
    m.get x.1 = some x.2 ∧ Reached new x.2 := by
  have := Map.get_of_mem (Readers.sorted_nodup h.sorted) hx
  exact ⟨this, h.stems _ _ this⟩

omit [Dbl D] in
theorem file_post {o : Map Int} {o2 o3 : Map (List Str)} {m d : Int} (e1 : o.get (lit "FILE_MUST_EXIST") = some m) (e2 : o.get (lit "FILE_DOES_EXIST") = some d) :
    (⟨(lit "ARGUMENT_FILE"), [⟨fileExistVT, o⟩], [], [], [], [⟨fileExtVT, o2⟩], [⟨sisterVT, o3⟩]⟩ : ArgObj Str D).post =
      if m ≠ 0 ∧ d = 0 then .throw .runtimeError else .ok () := by
  unfold ArgObj.post
  dsimp only
  have : postAll [(⟨fileExistVT, o⟩ : PropObj Str Int)] = if m ≠ 0 ∧ d = 0 then Res.throw .runtimeError else .ok () := by
    unfold postAll
    rw [List.foldlM_cons]
    show (fileExistPost o >>= fun _ => Res.ok ()) = _
    unfold fileExistPost
    rw [getOpt_some e1, getOpt_some e2]
    simp only [Res.ok_bind]
    split <;> rfl
  rw [this]
  split <;> rfl

/-- The final check fails exactly when a file that must exist is still missing. -/
theorem post_outcome {q : Parser D} (ok : ArgsOk q) :
    (postParseCheck q = .ok () ∧ ∀ f, ¬ NeedsFile q f) ∨ (postParseCheck q = .throw .runtimeError ∧ ∃ f, NeedsFile q f) := by
  have k1 : ∀ x ∈ q.strArg, x.2.post = .ok () := by
    intro x hx
    obtain ⟨_, _, _, _, _, _, e, -⟩ := strForm (ok.strs.stems_mem hx).2
    rw [e]; rfl
  have k2 : ∀ x ∈ q.switchArg, x.2.post = .ok () := by
    intro x hx
    obtain ⟨_, _, e, -⟩ := switchForm (ok.switches.stems_mem hx).2
    rw [e]; rfl
  have k3 : ∀ x ∈ q.intArg, x.2.post = .ok () := by
    intro x hx
    obtain ⟨_, _, _, e, -⟩ := intForm (ok.ints.stems_mem hx).2
    rw [e]; rfl
  have k4 : ∀ x ∈ q.doubleArg, x.2.post = .ok () := by
    intro x hx
    obtain ⟨_, _, _, e, -⟩ := doubleForm (ok.doubles.stems_mem hx).2
    rw [e]; rfl
  have good : ∀ {S : Type} {m : Map (ArgObj S D)}, (∀ x ∈ m, x.2.post = .ok ()) → m.foldlM (fun _ a => a.2.post) () = Res.ok () := by
    intro S m h
    rcases post_fold (m := m) (fun x hx => .inl (h x hx)) with ⟨a, -⟩ | ⟨-, x, hx, n⟩
    · exact a
    · exact absurd (h x hx) n
  have e : postParseCheck q = q.fileArg.foldlM (fun _ a => a.2.post) () := by
    unfold postParseCheck
    rw [good k1, good k2, good k3, good k4]; rfl
  have form : ∀ x ∈ q.fileArg, (x.2.post = .ok () ∧ ¬ NeedsFile q x.1) ∨ (x.2.post = .throw .runtimeError ∧ NeedsFile q x.1) := by
    intro x hx
    obtain ⟨hg, hr⟩ := ok.files.stems_mem hx
    obtain ⟨o, o2, o3, m, d, exts, sis, ea, e1, e2, -⟩ := fileForm hr
    have hp : x.2.post = if m ≠ 0 ∧ d = 0 then .throw .runtimeError else .ok () := by rw [ea]; exact file_post e1 e2
    have hn : NeedsFile q x.1 ↔ m ≠ 0 ∧ d = 0 := by
      unfold NeedsFile
      constructor
      · rintro ⟨a, m', h1, h2, h3, h4⟩
        rw [hg] at h1
        obtain rfl := Option.some.inj h1
        rw [ea] at h2 h4
        replace h2 := (argOpt_one (vt := fileExistVT) rfl).1 h2
        replace h4 := (argOpt_one (vt := fileExistVT) rfl).1 h4
        rw [e1] at h2
        rw [e2] at h4
        cases h2; cases h4
        exact ⟨h3, rfl⟩
      · rintro ⟨h1, rfl⟩
        refine ⟨x.2, m, hg, ?_, h1, ?_⟩
        · rw [ea]; exact (argOpt_one rfl).2 e1
        · rw [ea]; exact (argOpt_one rfl).2 e2
    rw [hp, hn]
    by_cases c : m ≠ 0 ∧ d = 0
    · rw [if_pos c]; exact .inr ⟨rfl, c⟩
    · rw [if_neg c]; exact .inl ⟨rfl, c⟩
  rw [e]
  rcases post_fold (m := q.fileArg) (fun x hx => (form x hx).imp And.left And.left) with ⟨a, b⟩ | ⟨a, x, hx, n⟩
  · refine .inl ⟨a, fun f hf => ?_⟩
    obtain ⟨c, -, hc, -⟩ := id hf
    rcases form _ (Map.get_mem hc) with ⟨-, h⟩ | ⟨h, -⟩
    · exact h hf
    · rw [b _ (Map.get_mem hc)] at h; cases h
  · refine .inr ⟨a, x.1, ?_⟩
    rcases form x hx with ⟨h, -⟩ | ⟨-, h⟩
    · exact absurd h n
    · exact h

theorem needs_after {fs : FS} {p q : Parser D} {args : List Str} {as : List (Str × Option Str)} (o : Orderly p) (ok : ArgsOk p)
    (h : RulesAfter fs p as q) (hf : Fine fs p args as) (f : Str) :
    NeedsFile q f ↔ NeedsFile p f ∧ ∀ v, (f, some v) ∉ as := by
  have acc : ∀ v, (f, some v) ∈ as → Acceptable fs p f v := by
    intro v hv
    clear h
    induction hf with
    | nil => cases hv
    | info _ _ ih => exact ih hv
    | value _ _ _ ok _ ih =>
      rcases List.mem_cons.1 hv with e | hv
      · cases e; exact ok
      · exact ih hv
    | switch _ _ _ _ _ _ ih =>
      rcases List.mem_cons.1 hv with e | hv
      · cases e
      · exact ih hv
  unfold NeedsFile
  rcases h.files f with ⟨e1, e2⟩ | ⟨a, b, e1, e2, e3, e4, e5⟩
  · rw [e1, e2]; simp
  · rw [e1, e2]
    constructor
    · rintro ⟨b', m, h1, h2, h3, h4⟩
      cases h1
      obtain ⟨h5, h6⟩ := e5.1 h4
      refine ⟨⟨a, m, rfl, (e3 m).1 h2, h3, h5⟩, fun v hv => ?_⟩
      have hex := h6 v hv
      cases acc v hv with
      | file ha hm _ _ _ hff =>
        rw [e1] at ha; cases ha
        obtain ⟨o, o2, o3, m0, d, exts, sis, rfl, g1, -⟩ := fileForm (ok.files _ _ e1)
        replace hm := (argOpt_one (vt := fileExistVT) rfl).1 hm
        have hm' := (argOpt_one (vt := fileExistVT) rfl).1 ((e3 m).1 h2)
        rw [g1] at hm hm'
        cases hm; cases hm'
        rw [hff h3] at hex; cases hex
      | int ha => have := o.one f .file .int (by simp [HasArg, e1]) (by simp [HasArg, ha]); cases this
      | double ha => have := o.one f .file .double (by simp [HasArg, e1]) (by simp [HasArg, ha]); cases this
      | str ha => have := o.one f .file .str (by simp [HasArg, e1]) (by simp [HasArg, ha]); cases this
    · rintro ⟨⟨a', m, h1, h2, h3, h4⟩, h5⟩
      cases h1
      exact ⟨b, m, rfl, (e3 m).2 h2, h3, e5.2 ⟨h4, fun v hv => absurd hv (h5 v)⟩⟩

/-- C106: whatever flags, arguments and options a parser was given, and whatever it has read before, it accepts a command line exactly when the
command line is made up of declared flags with acceptable values, switches and requests for information, not of requests for information only,
and names a file for every flag whose file must exist. -/
theorem C106_accepts (fs : FS) {p : Parser D} (h : ParserReached p) (o : Orderly p) (args : List Str) (hfit : ∀ v ∈ args, Fits v) :
    (∃ q, parse fs p args = .ok q) ↔
      ∃ as, Fine fs p args as ∧ as ≠ [] ∧ ∀ f, NeedsFile p f → ∃ v, (f, some v) ∈ as := by
  have ok := h.argsOk
  unfold parse
  by_cases h0 : args = []
  · rw [if_pos h0]
    subst h0
    constructor
    · rintro ⟨q, h⟩; cases h
    · rintro ⟨as, h, hne, -⟩; cases h; exact absurd rfl hne
  rw [if_neg h0]
  have hpos : 1 ≤ args.length := by
    cases args with
    | nil => exact absurd rfl h0
    | cons a b => simp
  obtain ⟨l1, l2⟩ := loop_accepts (fs := fs) (size := args.length + 1) args.length args (Nat.le_refl _) hfit p 2 o ok (by omega) (by omega)
  constructor
  · rintro ⟨q, e⟩
    obtain ⟨q', e1, e⟩ := Res.bind_eq_ok.1 e
    obtain ⟨u, e2, e⟩ := Res.bind_eq_ok.1 e
    obtain ⟨as, a1, a2, a3⟩ := l1 q' e1
    refine ⟨as, a1, a2 (by omega), fun f hf => ?_⟩
    rcases post_outcome (argsOk_parseLoop _ _ _ ok e1) with ⟨-, c⟩ | ⟨c, -⟩
    · have := c f
      rw [needs_after o ok a3 a1] at this
      by_contra hn
      exact this ⟨hf, fun v hv => hn ⟨v, hv⟩⟩
    · rw [c] at e2; cases e2
  · rintro ⟨as, a1, a2, a3⟩
    obtain ⟨q, e⟩ := l2 as a1 (fun _ => a2)
    rw [e, Res.ok_bind]
    obtain ⟨as', b1, -, b3⟩ := l1 q e
    obtain rfl := b1.says.unique o a1.says
    rcases post_outcome (argsOk_parseLoop _ _ _ ok e) with ⟨c, -⟩ | ⟨-, f, c⟩
    · rw [c]; exact ⟨q, rfl⟩
    · rw [needs_after o ok b3 b1] at c
      obtain ⟨v, hv⟩ := a3 f c.1
      exact absurd hv (c.2 v)

/-! ### The other outcomes -/

/-- A result is a value or an exception. -/
def Ends' {α : Type} (x : Res α) : Prop := (∃ a, x = .ok a) ∨ ∃ e, x = .throw e

omit [Dbl D] in
theorem Ends'.bind {α β : Type} {x : Res α} {f : α → Res β} (h : Ends' x) (hf : ∀ a, x = .ok a → Ends' (f a)) : Ends' (x >>= f) := by
  rcases h with ⟨a, rfl⟩ | ⟨e, rfl⟩
  · exact hf a rfl
  · exact .inr ⟨e, rfl⟩

omit [Dbl D] in
theorem Ends'.ok {α : Type} (a : α) : Ends' (Res.ok a) := .inl ⟨a, rfl⟩
omit [Dbl D] in
theorem Ends'.throw {α : Type} (e : Exn) : Ends' (Res.throw e : Res α) := .inr ⟨e, rfl⟩

theorem ends_int {a : ArgObj Int D} (h : Reached newArgumentInt a) (fs : FS) (n : Int) : Ends' (a.valid fs n) := by
  obtain ⟨o, lo, hi, rfl, e1, e2⟩ := intForm h
  have hv : Ends' (intVT.valid fs n o) := by
    show Ends' (intValid fs n o)
    unfold intValid
    rw [getOpt_some e1, getOpt_some e2]
    simp only [Res.ok_bind]
    split
    · exact .throw _
    · split
      · exact .throw _
      · exact .ok _
  unfold ArgObj.valid
  dsimp only
  rw [validAll_one]
  exact (hv.bind fun _ _ => .ok _).bind fun _ _ => .ok _

theorem ends_double {a : ArgObj D D} (h : Reached newArgumentDouble a) (fs : FS) (n : D) : Ends' (a.valid fs n) := by
  obtain ⟨o, lo, hi, rfl, e1, e2⟩ := doubleForm h
  have hv : Ends' (doubleVT.valid fs n o) := by
    show Ends' (doubleValid fs n o)
    unfold doubleValid
    rw [getOpt_some e1, getOpt_some e2]
    simp only [Res.ok_bind]
    split
    · exact .throw _
    · split
      · exact .throw _
      · exact .ok _
  unfold ArgObj.valid
  dsimp only
  rw [validAll_one]
  exact (hv.bind fun _ _ => .ok _).bind fun _ _ => .ok _

theorem ends_str {a : ArgObj Str D} (h : Reached newArgumentString a) (fs : FS) (v : Str)
    (hen : ¬ ArgOpt a.sets (lit "PROPERTY_STRING_CHOICE") (lit "STRING_CHOICE_ENFORCED") []) : Ends' (a.valid fs v) := by
  obtain ⟨o, o2, lo, hi, en, cs, rfl, e1, e2, e3, e4⟩ := strForm h
  have hv : Ends' (stringVT.valid fs v o) := by
    show Ends' (stringValid fs v o)
    unfold stringValid
    rw [getOpt_some e1, getOpt_some e2]
    simp only [Res.ok_bind]
    split
    · exact .throw _
    · split
      · exact .throw _
      · exact .ok _
  have hc : Ends' (choiceVT.valid fs v o2) := by
    show Ends' (choiceValid fs v o2)
    unfold choiceValid
    rw [getOpt_some e3, getOpt_some e4]
    simp only [Res.ok_bind]
    cases en with
    | nil => exact absurd ((argOpt_one (vt := choiceVT) rfl).2 e3) hen
    | cons e es =>
      simp only [begin, Res.ok_bind]
      split
      · split
        · exact .ok _
        · exact .throw _
      · exact .ok _
  unfold ArgObj.valid
  dsimp only
  rw [validAll_one, validAll_one]
  exact (hv.bind fun _ _ => .ok _).bind fun _ _ => (hc.bind fun _ _ => .ok _).bind fun _ _ => .ok _

theorem ends_switch {a : ArgObj Str D} (h : Reached newArgumentSwitch a) (fs : FS) (v : Str) : Ends' (a.valid fs v) := by
  obtain ⟨o, x, rfl, -⟩ := switchForm h
  have hv : Ends' (switchVT.valid fs v o) := by
    show Ends' (switchValid fs v o)
    unfold switchValid
    split
    · exact .throw _
    · exact .ok _
  unfold ArgObj.valid
  dsimp only
  rw [validAll_one]
  exact (hv.bind fun _ _ => .ok _).bind fun _ _ => .ok _

theorem step_ends (fs : FS) {p : Parser D} (o : Orderly p) (ok : ArgsOk p) (en : Enforcing p) (hd : StodOk D) (t : Str) (rest : List Str)
    (hfit : ∀ v ∈ rest, Fits v) : Ends' (parseArg fs p t rest) := by
  by_cases hk : ∃ k, HasArg p (resolve p t) k
  swap
  · rw [oneArg_none rest (fun k h => hk ⟨k, h⟩)]; exact .throw _
  obtain ⟨k, hk⟩ := hk
  have hk' := hk
  cases k with
  | str =>
    obtain ⟨a, ha⟩ := Option.ne_none_iff_exists'.1 hk
    rw [oneArg_str rest o ha]
    cases rest with
    | nil => exact .throw _
    | cons v ts => exact (ends_str (ok.strs _ _ ha) fs v (en _ _ ha)).bind fun _ _ => .ok _
  | int =>
    obtain ⟨a, ha⟩ := Option.ne_none_iff_exists'.1 hk
    rw [oneArg_int rest o ha]
    cases rest with
    | nil => exact .throw _
    | cons v ts =>
      refine Ends'.bind ?_ fun n _ => (ends_int (ok.ints _ _ ha) fs n).bind fun _ _ => .ok _
      obtain ⟨h1, h2, h3⟩ := C67_stoi v
      by_cases e : ∃ m, IntText v m
      · obtain ⟨m, hm⟩ := e
        by_cases r : -2 ^ 31 ≤ m ∧ m < 2 ^ 31
        · rw [h1 m hm r]; exact .ok _
        · rw [h2 m hm r]; exact .throw _
      · rw [h3 e]; exact .throw _
  | double =>
    obtain ⟨a, ha⟩ := Option.ne_none_iff_exists'.1 hk
    rw [oneArg_double rest o ha]
    cases rest with
    | nil => exact .throw _
    | cons v ts => exact Ends'.bind (hd v) fun n _ => (ends_double (ok.doubles _ _ ha) fs n).bind fun _ _ => .ok _
  | file =>
    obtain ⟨a, ha⟩ := Option.ne_none_iff_exists'.1 hk
    rw [oneArg_file rest o ha]
    cases rest with
    | nil => exact .throw _
    | cons v ts =>
      refine Ends'.bind ?_ fun _ _ => .ok _
      rcases file_valid (ok.files _ _ ha) fs v (hfit v (by simp)) with ⟨-, b, hv, -⟩ | ⟨-, e, hv⟩
      · exact .inl ⟨b, hv⟩
      · exact .inr ⟨e, hv⟩
  | switch =>
    obtain ⟨a, ha⟩ := Option.ne_none_iff_exists'.1 hk
    rw [oneArg_switch rest o ha]
    split
    · exact .ok _
    · cases rest with
      | nil => exact .ok _
      | cons v ts =>
        refine (ends_switch (ok.switches _ _ ha) fs v).bind fun _ _ => Ends'.bind ?_ fun _ _ => .ok _
        unfold positive
        split
        · exact .ok _
        · split
          · exact .ok _
          · exact .throw _

theorem RulesAfter.asks {fs fs' : FS} {p q : Parser D} {as : List (Str × Option Str)} (h : RulesAfter fs p as q) (args : List Str) :
    AsksVersion fs' q args ↔ AsksVersion fs' p args := by
  have st : ∀ t f, StandsFor q t f ↔ StandsFor p t f := by intro t f; unfold StandsFor; rw [h.flags]
  constructor
  · intro k
    induction k with
    | here h => exact .here h
    | info hi _ ih => exact .info hi ih
    | value hi hs ha _ ih => exact .value hi ((st _ _).1 hs) ((h.acceptable _ _).1 ha) ih
    | switch hi hs ha hn _ ih =>
      exact .switch hi ((st _ _).1 hs) ((h.same.kind _ _).1 ha) (fun u hu => (hn u hu).imp (fun g hg => (st _ _).1 hg)) ih
  · intro k
    induction k with
    | here h => exact .here h
    | info hi _ ih => exact .info hi ih
    | value hi hs ha _ ih => exact .value hi ((st _ _).2 hs) ((h.acceptable _ _).2 ha) ih
    | switch hi hs ha hn _ ih =>
      exact .switch hi ((st _ _).2 hs) ((h.same.kind _ _).2 ha) (fun u hu => (hn u hu).imp (fun g hg => (st _ _).2 hg)) ih

theorem loop_ends {fs : FS} {size : Nat} (hd : StodOk D) (n : Nat) : ∀ (args : List Str), args.length ≤ n → (∀ v ∈ args, Fits v) → ∀ (p : Parser D) (allowed : Nat),
    Orderly p → ArgsOk p → Enforcing p → allowed + args.length ≤ size + 1 → allowed ≤ size →
    (Ends' (parseLoop fs size 0 allowed p args) ∧ ¬ (AsksVersion fs p args ∨ (allowed + args.length = size + 1 ∧ ∀ t ∈ args, t ∈ infoTokens))) ∨
    (parseLoop fs size 0 allowed p args = .exit 0 ∧ (AsksVersion fs p args ∨ (allowed + args.length = size + 1 ∧ ∀ t ∈ args, t ∈ infoTokens))) := by
  induction n with
  | zero =>
    intro args hl _ p allowed o ok en h1 h2
    obtain rfl : args = [] := by simpa using hl
    refine .inl ⟨.ok _, ?_⟩
    rintro (h | ⟨h, -⟩)
    · cases h
    · simp only [List.length_nil] at h; omega
  | succ n ih =>
    intro args hl hfit p allowed o ok en h1 h2
    cases args with
    | nil =>
      refine .inl ⟨.ok _, ?_⟩
      rintro (h | ⟨h, -⟩)
      · cases h
      · simp only [List.length_nil] at h; omega
    | cons t ts =>
      have hl' : ts.length ≤ n := by simpa using hl
      have hfit' : ∀ v ∈ ts, Fits v := fun v hv => hfit v (by simp [hv])
      simp only [List.length_cons] at h1 ⊢
      by_cases hi : t ∈ infoTokens
      · have e : parseLoop fs size 0 allowed p (t :: ts) = if allowed = size then .exit 0 else parseLoop fs size 0 (allowed + 1) p ts := by
          simp only [infoTokens, List.mem_cons, List.not_mem_nil, or_false] at hi
          conv => lhs; unfold parseLoop
          rcases hi with rfl | rfl | rfl | rfl
          · rw [if_pos (.inl rfl)]
          · rw [if_pos (.inr rfl)]
          · rw [if_neg (by decide), if_neg (by decide), if_pos (.inl rfl)]
          · rw [if_neg (by decide), if_neg (by decide), if_pos (.inr rfl)]
        have hv : t ∉ versionTokens := by
          simp only [infoTokens, List.mem_cons, List.not_mem_nil, or_false] at hi
          rcases hi with rfl | rfl | rfl | rfl <;> decide
        have key : (AsksVersion fs p (t :: ts) ∨ (allowed + (ts.length + 1) = size + 1 ∧ ∀ u ∈ t :: ts, u ∈ infoTokens)) ↔
            (AsksVersion fs p ts ∨ (allowed + 1 + ts.length = size + 1 ∧ ∀ u ∈ ts, u ∈ infoTokens)) := by
          constructor
          · rintro (h | ⟨a, b⟩)
            · cases h with
              | here h => exact absurd h hv
              | info _ h => exact .inl h
              | value hn => exact absurd hi hn
              | switch hn => exact absurd hi hn
            · exact .inr ⟨by omega, fun u hu => b u (by simp [hu])⟩
          · rintro (h | ⟨a, b⟩)
            · exact .inl (.info hi h)
            · refine .inr ⟨by omega, fun u hu => ?_⟩
              rcases List.mem_cons.1 hu with rfl | hu
              · exact hi
              · exact b u hu
        rw [e, key]
        by_cases ha : allowed = size
        · rw [if_pos ha]
          refine .inr ⟨rfl, .inr ⟨?_, ?_⟩⟩
          · have : ts.length = 0 := by omega
            omega
          · obtain rfl : ts = [] := by
              have : ts.length = 0 := by omega
              simpa using this
            intro u hu; cases hu
        · rw [if_neg ha]
          exact ih ts hl' hfit' p (allowed + 1) o ok en (by omega) (by omega)
      · have notall : ¬ (allowed + (ts.length + 1) = size + 1 ∧ ∀ u ∈ t :: ts, u ∈ infoTokens) := fun h => hi (h.2 t (by simp))
        simp only [notall, or_false]
        by_cases hv : t ∈ versionTokens
        · have e : parseLoop fs size 0 allowed p (t :: ts) = .exit 0 := by
            simp only [versionTokens, List.mem_cons, List.not_mem_nil, or_false] at hv
            conv => lhs; unfold parseLoop
            rcases hv with rfl | rfl
            · rw [if_neg (by decide), if_pos (.inl rfl)]
            · rw [if_neg (by decide), if_pos (.inr rfl)]
          exact .inr ⟨e, .here hv⟩
        · have unf : ∀ (p : Parser D) (t : Str) (ts : List Str), t ∉ infoTokens → t ∉ versionTokens → parseLoop fs size 0 allowed p (t :: ts) =
              (parseArg fs p t ts >>= fun r => parseLoop fs size r.2 allowed r.1 ts) := by
            intro p t ts hi hv
            simp only [infoTokens, versionTokens, List.mem_cons, List.not_mem_nil, or_false, not_or] at hi hv
            conv => lhs; unfold parseLoop
            rw [if_neg (by rintro (e | e); exacts [hi.1 e, hi.2.1 e]), if_neg (by rintro (e | e); exacts [hv.1 e, hv.2 e]),
              if_neg (by rintro (e | e); exacts [hi.2.2.1 e, hi.2.2.2 e])]
          rw [unf p t ts hi hv]
          rcases step_outcome fs o ok t ts hfit' with ⟨f, v, us, q1, rfl, hs, hacc, e, ra⟩ | ⟨f, q1, hs, hsw, hn, e, ra⟩ | ⟨hno, hbad⟩
          · rw [e, Res.ok_bind]
            dsimp only
            have sk : parseLoop fs size 1 allowed q1 (v :: us) = parseLoop fs size 0 allowed q1 us := by
              conv => lhs; unfold parseLoop
            rw [sk]
            simp only [List.length_cons] at h1 hl'
            have key : AsksVersion fs p (t :: v :: us) ↔ AsksVersion fs q1 us ∨ (allowed + us.length = size + 1 ∧ ∀ u ∈ us, u ∈ infoTokens) := by
              rw [ra.asks]
              constructor
              · intro h
                cases h with
                | here h => exact absurd h hv
                | info h => exact absurd h hi
                | value _ _ _ h => exact .inl h
                | switch _ hs' ha' =>
                  obtain ⟨k, k1, k2⟩ := hacc.kind
                  rw [hs'.unique o hs] at ha'
                  exact absurd (o.one _ _ _ k1 ha') k2
              · rintro (h | ⟨h, -⟩)
                · exact .value hi hs hacc h
                · omega
            rw [key]
            exact ih us (by omega) (fun w hw => hfit' w (by simp [hw])) q1 allowed (ra.same.orderly o) (argsOk_parseArg ok e)
              (fun f a ha => en f a (by rw [← ra.strs]; exact ha)) (by omega) h2
          · rw [e, Res.ok_bind]
            dsimp only
            have key : AsksVersion fs p (t :: ts) ↔ AsksVersion fs q1 ts ∨ (allowed + ts.length = size + 1 ∧ ∀ u ∈ ts, u ∈ infoTokens) := by
              rw [ra.asks]
              constructor
              · intro h
                cases h with
                | here h => exact absurd h hv
                | info h => exact absurd h hi
                | value _ hs' ha' _ =>
                  obtain ⟨k, k1, k2⟩ := ha'.kind
                  rw [hs'.unique o hs] at k1
                  exact absurd (o.one _ _ _ k1 hsw) k2
                | switch _ _ _ _ h => exact .inl h
              · rintro (h | ⟨h, -⟩)
                · exact .switch hi hs hsw hn h
                · omega
            rw [key]
            exact ih ts hl' hfit' q1 allowed (ra.same.orderly o) (argsOk_parseArg ok e)
              (fun f a ha => en f a (by rw [← ra.strs]; exact ha)) (by omega) h2
          · refine .inl ⟨?_, ?_⟩
            · rcases hbad with hbad | ⟨v, us, q1, rfl, n1, n2, n3, e⟩
              · rcases step_ends fs o ok en hd t ts hfit' with ⟨r, hr⟩ | ⟨er, hr⟩
                · exact absurd hr (hbad r)
                · rw [hr]; exact .throw _
              · rw [e, Res.ok_bind]
                dsimp only
                rw [unf q1 v us n1 n2, oneArg_none us n3]
                exact .throw _
            · intro h
              cases h with
              | here h => exact hv h
              | info h => exact hi h
              | value _ hs' ha' _ => exact hno ⟨_, hs', .inl ⟨_, rfl, ha'⟩⟩
              | switch _ hs' ha' hn' _ => exact hno ⟨_, hs', .inr ⟨ha', hn'⟩⟩

/-- C106 (the other outcomes): reading a command line never has undefined behaviour and always ends. The program is ended, successfully, exactly
when the version is asked for after an acceptable beginning, or when the command line consists of requests for information; otherwise an
exception is thrown for every command line that is not accepted. -/
theorem C106_outcomes (fs : FS) {p : Parser D} (h : ParserReached p) (o : Orderly p) (en : Enforcing p) (hd : StodOk D) (args : List Str)
    (hfit : ∀ v ∈ args, Fits v) :
    ((∃ q, parse fs p args = .ok q) ∨ (∃ e, parse fs p args = .throw e) ∨ parse fs p args = .exit 0) ∧
    (parse fs p args = .exit 0 ↔ AsksVersion fs p args ∨ (args ≠ [] ∧ ∀ t ∈ args, t ∈ infoTokens)) := by
  have ok := h.argsOk
  unfold parse
  by_cases h0 : args = []
  · rw [if_pos h0]
    refine ⟨.inr (.inl ⟨_, rfl⟩), ?_⟩
    subst h0
    constructor
    · intro h; cases h
    · rintro (h | ⟨h, -⟩)
      · cases h
      · exact absurd rfl h
  rw [if_neg h0]
  have hpos : 1 ≤ args.length := by
    cases args with
    | nil => exact absurd rfl h0
    | cons a b => simp
  have ee : (AsksVersion fs p args ∨ (args ≠ [] ∧ ∀ t ∈ args, t ∈ infoTokens)) ↔
      (AsksVersion fs p args ∨ (2 + args.length = args.length + 1 + 1 ∧ ∀ t ∈ args, t ∈ infoTokens)) := by
    have : 2 + args.length = args.length + 1 + 1 := by omega
    simp [h0, this]
  rw [ee]
  rcases loop_ends (fs := fs) (size := args.length + 1) hd args.length args (Nat.le_refl _) hfit p 2 o ok en (by omega) (by omega) with ⟨⟨q, e⟩ | ⟨er, e⟩, n⟩ | ⟨e, y⟩
  · rw [e, Res.ok_bind]
    rcases post_outcome (argsOk_parseLoop _ _ _ ok e) with ⟨c, -⟩ | ⟨c, -⟩
    · rw [c]
      exact ⟨.inl ⟨q, rfl⟩, ⟨fun h => (by cases h), fun h => absurd h n⟩⟩
    · rw [c]
      exact ⟨.inr (.inl ⟨_, rfl⟩), ⟨fun h => (by cases h), fun h => absurd h n⟩⟩
  · rw [e]
    exact ⟨.inr (.inl ⟨_, rfl⟩), ⟨fun h => (by cases h), fun h => absurd h n⟩⟩
  · rw [e]
    exact ⟨.inr (.inr rfl), ⟨fun _ => y, fun _ => rfl⟩⟩

/-! ### Setting the options -/

omit [Dbl D] in
theorem setAll_one {S T : Type} {vt : VTable S T} {o : Map T} {pr op : Str} {x : T} (h : vt.name = pr) {ps : List (PropObj S T)} {b : Bool}
    (e : setAll pr op x [⟨vt, o⟩] = .ok (ps, b)) : b = true ∧ ps = [⟨vt, o.set op x⟩] := by
  unfold setAll at e
  rw [List.mapM_cons, List.mapM_nil] at e
  simp only [h, if_true] at e
  obtain ⟨l, e1, e⟩ := Res.bind_eq_ok.1 e
  obtain ⟨a, e2, e1⟩ := Res.bind_eq_ok.1 e1
  obtain ⟨o', e3, e2⟩ := Res.bind_eq_ok.1 e2
  unfold setOpt at e3
  split at e3
  · cases e3
  · cases e3; cases e2; cases e1; cases e
    exact ⟨by simp [h], rfl⟩

omit [Dbl D] in
theorem argOpt_set {S T : Type} {vt : VTable S T} {o : Map T} {pr op : Str} {x : T} (h : vt.name = pr) (op' : Str) (y : T) :
    ArgOpt [⟨vt, o.set op x⟩] pr op' y ↔ if op' = op then y = x else ArgOpt [⟨vt, o⟩] pr op' y := by
  rw [argOpt_one h, Map.get_set]
  split
  · simp [eq_comm]
  · rw [argOpt_one h]

/-- C106 (the options): after a successful call of `setFlagArgOpt`, the rules by which values are accepted are those set: bounds of numbers, -/
theorem C106_set_int {p q : Parser D} (h : ParserReached p) (flag op : Str) (x : Int)
    (e : setOptInt p flag (lit "ARGUMENT_INT") (lit "PROPERTY_INT") op x = .ok q) :
    OptSet newArgumentInt p.intArg q.intArg flag (·.ints) (lit "PROPERTY_INT") op x ∧ q.flags = p.flags ∧
      q.doubleArg = p.doubleArg ∧ q.strArg = p.strArg ∧ q.switchArg = p.switchArg ∧ q.fileArg = p.fileArg := by
  unfold setOptInt at e
  rw [if_pos rfl] at e
  obtain ⟨m, e1, e⟩ := Res.bind_eq_ok.1 e
  cases e
  refine ⟨?_, rfl, rfl, rfl, rfl, rfl⟩
  obtain ⟨a, e2, e1⟩ := Res.bind_eq_ok.1 e1
  cases e1
  refine ⟨⟨a, Map.get_set_self _ _ _, ?_⟩, fun g hg => Map.get_set_ne _ hg _⟩
  obtain ⟨o, lo, hi, ea, -, -⟩ := intForm (h.argsOk.ints.old flag)
  rw [ea] at e2 ⊢
  obtain ⟨⟨ps, b⟩, e3, e2⟩ := Res.bind_eq_ok.1 e2
  obtain ⟨rfl, rfl⟩ := setAll_one (vt := intVT) rfl e3
  simp only [Bool.not_true, Bool.false_eq_true, if_false] at e2
  cases e2
  exact fun op' y => argOpt_set (vt := intVT) rfl op' y

/-- C106 (the options), -/
theorem C106_set_double {p q : Parser D} (h : ParserReached p) (flag op : Str) (x : D)
    (e : setOptDouble p flag (lit "ARGUMENT_DOUBLE") (lit "PROPERTY_DOUBLE") op x = .ok q) :
    OptSet newArgumentDouble p.doubleArg q.doubleArg flag (·.doubles) (lit "PROPERTY_DOUBLE") op x ∧ q.flags = p.flags ∧
      q.intArg = p.intArg ∧ q.strArg = p.strArg ∧ q.switchArg = p.switchArg ∧ q.fileArg = p.fileArg := by
  unfold setOptDouble at e
  rw [if_pos rfl] at e
  obtain ⟨m, e1, e⟩ := Res.bind_eq_ok.1 e
  cases e
  refine ⟨?_, rfl, rfl, rfl, rfl, rfl⟩
  obtain ⟨a, e2, e1⟩ := Res.bind_eq_ok.1 e1
  cases e1
  refine ⟨⟨a, Map.get_set_self _ _ _, ?_⟩, fun g hg => Map.get_set_ne _ hg _⟩
  obtain ⟨o, lo, hi, ea, -, -⟩ := doubleForm (h.argsOk.doubles.old flag)
  rw [ea] at e2 ⊢
  obtain ⟨⟨ps, b⟩, e3, e2⟩ := Res.bind_eq_ok.1 e2
  obtain ⟨rfl, rfl⟩ := setAll_one (vt := doubleVT) rfl e3
  simp only [Bool.not_true, Bool.false_eq_true, if_false] at e2
  cases e2
  exact fun op' y => argOpt_set (vt := doubleVT) rfl op' y

/-- the choices of texts, -/
theorem C106_set_choices {p q : Parser D} (h : ParserReached p) (flag op : Str) (x : List Str)
    (e : setOptSet p flag (lit "ARGUMENT_STRING") (lit "PROPERTY_STRING_CHOICE") op x = .ok q) :
    OptSet newArgumentString p.strArg q.strArg flag (·.sets) (lit "PROPERTY_STRING_CHOICE") op x ∧
      (∀ a, q.strArg.get flag = some a → a.sizes = ((p.strArg.get flag).getD newArgumentString).sizes) ∧ q.flags = p.flags ∧
      q.intArg = p.intArg ∧ q.doubleArg = p.doubleArg ∧ q.switchArg = p.switchArg ∧ q.fileArg = p.fileArg := by
  unfold setOptSet at e
  rw [if_neg (by decide), if_pos rfl] at e
  obtain ⟨m, e1, e⟩ := Res.bind_eq_ok.1 e
  cases e
  obtain ⟨a, e2, e1⟩ := Res.bind_eq_ok.1 e1
  cases e1
  obtain ⟨o, o2, lo, hi, en, cs, ea, -⟩ := strForm (h.argsOk.strs.old flag)
  rw [ea] at e2
  obtain ⟨⟨ps, b⟩, e3, e2⟩ := Res.bind_eq_ok.1 e2
  obtain ⟨rfl, rfl⟩ := setAll_one (vt := choiceVT) rfl e3
  simp only [Bool.not_true, Bool.false_eq_true, if_false] at e2
  cases e2
  refine ⟨⟨⟨_, Map.get_set_self _ _ _, ?_⟩, fun g hg => Map.get_set_ne _ hg _⟩, ?_, rfl, rfl, rfl, rfl, rfl⟩
  · rw [ea]
    exact fun op' y => argOpt_set (vt := choiceVT) rfl op' y
  · intro a ha
    dsimp only at ha
    rw [Map.get_set_self] at ha
    cases ha
    rw [ea]

/-- whether a file must exist, -/
theorem C106_set_must {p q : Parser D} (h : ParserReached p) (flag op : Str) (x : Int)
    (e : setOptInt p flag (lit "ARGUMENT_FILE") (lit "PROPERTY_FILE_EXIST") op x = .ok q) :
    OptSet newArgumentFile p.fileArg q.fileArg flag (·.ints) (lit "PROPERTY_FILE_EXIST") op x ∧
      (∀ a, q.fileArg.get flag = some a → a.sets = ((p.fileArg.get flag).getD newArgumentFile).sets) ∧ q.flags = p.flags ∧
      q.intArg = p.intArg ∧ q.doubleArg = p.doubleArg ∧ q.strArg = p.strArg ∧ q.switchArg = p.switchArg := by
  unfold setOptInt at e
  rw [if_neg (by decide), if_neg (by decide), if_neg (by decide), if_pos rfl] at e
  obtain ⟨m, e1, e⟩ := Res.bind_eq_ok.1 e
  cases e
  obtain ⟨a, e2, e1⟩ := Res.bind_eq_ok.1 e1
  cases e1
  obtain ⟨o, o2, o3, m, d, exts, sis, ea, -⟩ := fileForm (h.argsOk.files.old flag)
  rw [ea] at e2
  obtain ⟨⟨ps, b⟩, e3, e2⟩ := Res.bind_eq_ok.1 e2
  obtain ⟨rfl, rfl⟩ := setAll_one (vt := fileExistVT) rfl e3
  simp only [Bool.not_true, Bool.false_eq_true, if_false] at e2
  cases e2
  refine ⟨⟨⟨_, Map.get_set_self _ _ _, ?_⟩, fun g hg => Map.get_set_ne _ hg _⟩, ?_, rfl, rfl, rfl, rfl, rfl⟩
  · rw [ea]
    exact fun op' y => argOpt_set (vt := fileExistVT) rfl op' y
  · intro a ha
    dsimp only at ha
    rw [Map.get_set_self] at ha
    cases ha
    rw [ea]

/-- and the extensions of files. -/
theorem C106_set_exts {p q : Parser D} (h : ParserReached p) (flag op : Str) (x : List Str)
    (e : setOptSet p flag (lit "ARGUMENT_FILE") (lit "PROPERTY_FILE_EXT") op x = .ok q) :
    OptSet newArgumentFile p.fileArg q.fileArg flag (·.sets) (lit "PROPERTY_FILE_EXT") op x ∧
      (∀ a, q.fileArg.get flag = some a → a.ints = ((p.fileArg.get flag).getD newArgumentFile).ints) ∧ q.flags = p.flags ∧
      q.intArg = p.intArg ∧ q.doubleArg = p.doubleArg ∧ q.strArg = p.strArg ∧ q.switchArg = p.switchArg := by
  unfold setOptSet at e
  rw [if_pos rfl] at e
  obtain ⟨m, e1, e⟩ := Res.bind_eq_ok.1 e
  cases e
  obtain ⟨a, e2, e1⟩ := Res.bind_eq_ok.1 e1
  cases e1
  obtain ⟨o, o2, o3, m, d, exts, sis, ea, -⟩ := fileForm (h.argsOk.files.old flag)
  rw [ea] at e2
  obtain ⟨⟨ps, b⟩, e3, e2⟩ := Res.bind_eq_ok.1 e2
  obtain ⟨rfl, rfl⟩ := setAll_one (vt := fileExtVT) rfl e3
  simp only [Bool.not_true, Bool.false_eq_true, if_false] at e2
  cases e2
  refine ⟨⟨⟨_, Map.get_set_self _ _ _, ?_⟩, fun g hg => Map.get_set_ne _ hg _⟩, ?_, rfl, rfl, rfl, rfl, rfl⟩
  · rw [ea]
    exact fun op' y => argOpt_set (vt := fileExtVT) rfl op' y
  · intro a ha
    dsimp only at ha
    rw [Map.get_set_self] at ha
    cases ha
    rw [ea]

/-- C106 (the defaults): the options of new arguments. -/
theorem C106_defaults :
    (∀ x, ArgOpt (newArgumentInt : ArgObj Int D).ints (lit "PROPERTY_INT") (lit "MIN") x ↔ x = -2 ^ 31) ∧
    (∀ x, ArgOpt (newArgumentInt : ArgObj Int D).ints (lit "PROPERTY_INT") (lit "MAX") x ↔ x = 2 ^ 31 - 1) ∧
    (∀ x : D, ArgOpt (newArgumentDouble : ArgObj D D).doubles (lit "PROPERTY_DOUBLE") (lit "MIN") x ↔ x = Dbl.lowest) ∧
    (∀ x : D, ArgOpt (newArgumentDouble : ArgObj D D).doubles (lit "PROPERTY_DOUBLE") (lit "MAX") x ↔ x = Dbl.max) ∧
    (∀ x, ArgOpt (newArgumentString : ArgObj Str D).sizes (lit "PROPERTY_STRING") (lit "MIN_LENGTH") x ↔ x = 0) ∧
    (∀ x, ArgOpt (newArgumentString : ArgObj Str D).sizes (lit "PROPERTY_STRING") (lit "MAX_LENGTH") x ↔ x = 2 ^ 64 - 1) ∧
    (∀ x, ArgOpt (newArgumentString : ArgObj Str D).sets (lit "PROPERTY_STRING_CHOICE") (lit "STRING_CHOICE_ENFORCED") x ↔ x = [(lit "false")]) ∧
    (∀ x, ArgOpt (newArgumentFile : ArgObj Str D).ints (lit "PROPERTY_FILE_EXIST") (lit "FILE_MUST_EXIST") x ↔ x = 0) ∧
    (∀ x, ArgOpt (newArgumentFile : ArgObj Str D).ints (lit "PROPERTY_FILE_EXIST") (lit "FILE_DOES_EXIST") x ↔ x = 0) ∧
    (∀ x, ArgOpt (newArgumentFile : ArgObj Str D).sets (lit "PROPERTY_FILE_EXT") (lit "ALLOWED_FILE_EXT") x ↔ x = [(lit "*")]) := by
  have key : ∀ {S T : Type} (q : PropObj S T) (op : Str) (y : T), q.opts.get op = some y → ∀ x, ArgOpt [q] q.vt.name op x ↔ x = y := by
    intro S T q op y h x
    have := argOpt_one (vt := q.vt) (o := q.opts) (op := op) (x := x) rfl
    rw [h] at this
    simpa [eq_comm] using this
  exact ⟨key newPropertyInt _ _ rfl, key newPropertyInt _ _ rfl, key newPropertyDouble _ _ rfl, key newPropertyDouble _ _ rfl,
    key newPropertyString _ _ rfl, key newPropertyString _ _ rfl, key newPropertyStringChoice _ _ rfl, key newPropertyFileExist _ _ rfl,
    key newPropertyFileExist _ _ rfl, key newPropertyFileExt _ _ rfl⟩

end
end Verif.Args
