import Lean.Elab.Tactic
import Verif.IO
import Verif.Spec.CalcJ
/-
What the calc_J parser (`prepareParser`) does with one token, and with a whole command line.
-/
namespace Verif.Args
open Strings

open Lean Elab Tactic Meta in
/-- Closes `a = b` with `Eq.refl a`, leaving the check that both sides compute to the same value to the kernel. -/
elab "kernel_rfl" : tactic => do
  let g ← getMainGoal
  let t ← instantiateMVars (← g.getType)
  let some (_, a, _) := t.eq? | throwError "not an equality"
  g.assign (← mkEqRefl a)

/-- The argument of a flag with a choice of strings, once configured (io.cpp:250-291). -/
def choiceArg {D : Type} (choices : List Str) : ArgObj Str D :=
  ⟨lit "ARGUMENT_STRING", [], [], [newPropertyString], [],
    [⟨choiceVT, [(lit "STRING_CHOICES", choices), (lit "STRING_CHOICE_ENFORCED", [lit "true"])]⟩], []⟩

def fileArgWith {D : Type} (exts : List Str) (exist : Int) (sis : Map (List Str)) : ArgObj Str D :=
  ⟨lit "ARGUMENT_FILE",
    [⟨fileExistVT, [(lit "FILE_DOES_EXIST", exist), (lit "FILE_MUST_EXIST", 0)]⟩], [], [], [],
    [⟨fileExtVT, [(lit "ALLOWED_FILE_EXT", exts)]⟩],
    [⟨sisterVT, sis⟩]⟩

def sisMap (allowed exists_ name path pathname : List Str) : Map (List Str) :=
  [(lit "ALLOWED_SISTER_FILE_EXT", allowed), (lit "SISTER_FILE_EXISTS", exists_), (lit "SISTER_FILE_NAME", name),
   (lit "SISTER_FILE_PATH", path), (lit "SISTER_FILE_PATH_NAME", pathname)]

def sis0 (allowed : List Str) : Map (List Str) :=
  let nd := [lit "NOT_DEFINED"]
  sisMap allowed [lit "false"] nd nd nd

def punExts : List Str := [lit ".7", lit ".orb", lit ".pun"]
def logExts : List Str := [lit ".log"]
def logSis : List Str := [lit ".orb", lit ".7", lit ".pun"]
def punSis : List Str := [lit ".log"]

section
variable {D : Type}

def calcStrArg : Map (ArgObj Str D) :=
  let ty := choiceArg [lit "HOMO", lit "LUMO"]
  let sp := choiceArg [lit "Alpha", lit "Beta"]
  [(lit "--orbital_type_1", ty), (lit "--orbital_type_2", ty), (lit "--spin_1", sp), (lit "--spin_2", sp), (lit "--spin_P", sp)]

def calcSwitchArg : Map (ArgObj Str D) :=
  [(lit "--citation", newArgumentSwitch), (lit "--counter_poise", newArgumentSwitch), (lit "--version", newArgumentSwitch)]

def calcIntArg : Map (ArgObj Int D) :=
  [(lit "--orbital_num_1", newArgumentInt), (lit "--orbital_num_2", newArgumentInt)]

def calcFileArg : Map (ArgObj Str D) :=
  let l := fileArgWith logExts 0 (sis0 logSis)
  let p := fileArgWith punExts 0 (sis0 punSis)
  [(lit "--log_1", l), (lit "--log_2", l), (lit "--log_P", l), (lit "--pun_1", p), (lit "--pun_2", p), (lit "--pun_P", p)]

def calcNames : List (Str × Str) := [
  (lit "--citation", lit "-cite"), (lit "--counter_poise", lit "-cp"), (lit "--help", lit "-h"),
  (lit "--log_1", lit "-l_1"), (lit "--log_2", lit "-l_2"), (lit "--log_P", lit "-l_P"),
  (lit "--orbital_num_1", lit "-orb_num_1"), (lit "--orbital_num_2", lit "-orb_num_2"),
  (lit "--orbital_type_1", lit "-orb_ty_1"), (lit "--orbital_type_2", lit "-orb_ty_2"),
  (lit "--pun_1", lit "-p_1"), (lit "--pun_2", lit "-p_2"), (lit "--pun_P", lit "-p_P"),
  (lit "--spin_1", lit "-s_1"), (lit "--spin_2", lit "-s_2"), (lit "--spin_P", lit "-s_P"), (lit "--version", lit "-v")]

/-- The parser calc_J uses: the result of `prepareParser`. -/
def calcJ [Dbl D] : Parser D :=
  match prepareParser (D := D) with
  | .ok p => p
  | _ => .empty

set_option maxRecDepth 100000 in
set_option maxHeartbeats 4000000 in
theorem prepareParser_ok [Dbl D] : prepareParser (D := D) = .ok calcJ := by kernel_rfl

theorem calcJ_strArg [Dbl D] : (calcJ (D := D)).strArg = calcStrArg := by kernel_rfl
theorem calcJ_switchArg [Dbl D] : (calcJ (D := D)).switchArg = calcSwitchArg := by kernel_rfl
theorem calcJ_intArg [Dbl D] : (calcJ (D := D)).intArg = calcIntArg := by kernel_rfl
theorem calcJ_doubleArg [Dbl D] : (calcJ (D := D)).doubleArg = [] := by kernel_rfl
theorem calcJ_fileArg [Dbl D] : (calcJ (D := D)).fileArg = calcFileArg := by kernel_rfl
theorem calcJ_flags [Dbl D] : (calcJ (D := D)).flags.map (fun f => (f.1, f.2.1)) = calcNames := by kernel_rfl
theorem calcJ_ints [Dbl D] : (calcJ (D := D)).ints = [(lit "--orbital_num_1", 0), (lit "--orbital_num_2", 0)] := by kernel_rfl
theorem calcJ_strs [Dbl D] : (calcJ (D := D)).strs =
    [(lit "--citation", lit "OFF"), (lit "--counter_poise", lit "OFF"), (lit "--orbital_type_1", lit "HOMO"),
     (lit "--orbital_type_2", lit "HOMO"), (lit "--spin_1", lit "Alpha"), (lit "--spin_2", lit "Alpha"),
     (lit "--spin_P", lit "Alpha"), (lit "--version", lit "OFF")] := by kernel_rfl

/-! ### Flag names -/

theorem Map.get_isSome {V : Type} (m : Map V) (k : Str) : (m.get k).isSome = decide (k ∈ m.map (·.1)) := by
  induction m with
  | nil => simp
  | cons x m ih =>
    obtain ⟨k', v⟩ := x
    unfold Map.get
    by_cases h : k = k'
    · simp [h]
    · simp [h, ih]

/-- The full name a token stands for, from the table of names. -/
def resolveN (names : List (Str × Str)) (t : Str) : Str :=
  if t ∈ names.map (·.1) then t
  else match names.find? (fun f => f.2 == t) with
    | some f => f.1
    | none => t

theorem resolve_names (p : Parser D) (t : Str) : resolve p t = resolveN (p.flags.map (fun f => (f.1, f.2.1))) t := by
  unfold resolve resolveN
  have h := Map.get_isSome p.flags t
  have h2 : (p.flags.map (fun f => (f.1, f.2.1))).map (·.1) = p.flags.map (·.1) := by simp [Function.comp_def]
  rw [h2]
  cases hg : p.flags.get t with
  | some x =>
    rw [hg] at h
    have : t ∈ p.flags.map (·.1) := by simpa using h.symm
    simp only [if_pos this]
  | none =>
    rw [hg] at h
    have : t ∉ p.flags.map (·.1) := by simpa using h.symm
    simp only [if_neg this]
    rw [List.find?_map]
    cases hf : p.flags.find? (fun f => f.2.1 == t) with
    | none => simp [Function.comp_def, hf]
    | some y => simp [Function.comp_def, hf]

theorem nextIsFlag_names (p : Parser D) (rest : List Str) :
    nextIsFlag p rest = match rest with
      | [] => false
      | next :: _ => decide (next ∈ (p.flags.map (fun f => (f.1, f.2.1))).flatMap (fun f => [f.1, f.2])) := by
  unfold nextIsFlag
  cases rest with
  | nil => rfl
  | cons next r =>
    simp only [List.flatMap_map]
    generalize p.flags = l
    induction l with
    | nil => simp
    | cons x l ih =>
      simp only [List.any_cons, ih, List.flatMap_cons]
      rw [Bool.eq_iff_iff]
      simp only [Bool.or_eq_true, beq_iff_eq, decide_eq_true_eq, List.mem_append, List.mem_cons, List.not_mem_nil, or_false]
      constructor
      · rintro ((h | h) | h)
        · exact .inl (.inl h.symm)
        · exact .inl (.inr h.symm)
        · exact .inr h
      · rintro ((h | h) | h)
        · exact .inl (.inl h.symm)
        · exact .inl (.inr h.symm)
        · exact .inr h

theorem calcNames_tokens (t : Str) : t ∈ calcNames.flatMap (fun f => [f.1, f.2]) ↔ t ∈ flagTokens := by
  have h1 : ∀ t ∈ calcNames.flatMap (fun f => [f.1, f.2]), t ∈ flagTokens := by decide
  have h2 : ∀ t ∈ flagTokens, t ∈ calcNames.flatMap (fun f => [f.1, f.2]) := by decide
  exact ⟨h1 t, h2 t⟩

theorem resolve_value : ∀ x ∈ valueFlags, resolveN calcNames x.1 = x.1 ∧ resolveN calcNames x.2.1 = x.1 := by decide
theorem resolve_switch : ∀ x ∈ switchTokens, resolveN calcNames x.1 = x.2 := by decide
theorem resolve_unknown {t : Str} (h : t ∉ flagTokens) : resolveN calcNames t = t := by
  unfold resolveN
  split
  · rfl
  · have : calcNames.find? (fun f => f.2 == t) = none := by
      rw [List.find?_eq_none]
      rintro ⟨a, b⟩ hx hb
      refine h ((calcNames_tokens t).1 ?_)
      simp only [beq_iff_eq] at hb
      subst hb
      exact List.mem_flatMap.2 ⟨_, hx, by simp⟩
    rw [this]

/-! ### One token -/

/-- The parts of the parser that never change while parsing. -/
structure Cfg (p : Parser D) : Prop where
  strArg : p.strArg = calcStrArg
  switchArg : p.switchArg = calcSwitchArg
  intArg : p.intArg = calcIntArg
  doubleArg : p.doubleArg = []
  names : p.flags.map (fun f => (f.1, f.2.1)) = calcNames

def fileNames : List Str := [lit "--pun_P", lit "--pun_1", lit "--pun_2", lit "--log_P", lit "--log_1", lit "--log_2"]

/-- What giving a flag a value does. -/
def setVal (fs : FS) (p : Parser D) (f : Str) (k : Kind) (v : Str) : Res (Parser D) :=
  match k with
  | .spin => if v = lit "Alpha" ∨ v = lit "Beta" then .ok { p with strs := p.strs.set f v } else .throw .invalidArgument
  | .otype => if v = lit "HOMO" ∨ v = lit "LUMO" then .ok { p with strs := p.strs.set f v } else .throw .invalidArgument
  | .onum => do
    let n ← stoi v
    .ok { p with ints := p.ints.set f n }
  | .pun | .log =>
    match p.fileArg.get f with
    | none => .throw .invalidArgument
    | some a => do
      let a' ← a.valid fs v
      .ok { p with fileArg := p.fileArg.set f a', strs := p.strs.set f v }

theorem choiceArg_valid (fs : FS) (c1 c2 v : Str) (h1 : c1.length < 100) (h2 : c2.length < 100) :
    (choiceArg (D := D) [c1, c2]).valid fs v =
      if v = c1 ∨ v = c2 then .ok (choiceArg [c1, c2]) else .throw .invalidArgument := by
  have hc : choiceVT.valid fs v [(lit "STRING_CHOICES", [c1, c2]), (lit "STRING_CHOICE_ENFORCED", [lit "true"])] =
      if v = c1 ∨ v = c2 then .ok [(lit "STRING_CHOICES", [c1, c2]), (lit "STRING_CHOICE_ENFORCED", [lit "true"])]
      else .throw .invalidArgument := by
    show (if v ∈ [c1, c2] then _ else _) = _
    simp only [List.mem_cons, List.not_mem_nil, or_false]
  have hs : newPropertyString.vt.valid fs v newPropertyString.opts =
      if v.length > 2 ^ 64 - 1 then .throw .invalidArgument else .ok newPropertyString.opts := by
    show (if v.length > 2 ^ 64 - 1 then Res.throw Exn.invalidArgument
      else if v.length < 0 then Res.throw Exn.invalidArgument else Res.ok newPropertyString.opts) = _
    simp
  by_cases hv : v = c1 ∨ v = c2
  · rw [if_pos hv] at hc ⊢
    rw [if_neg (by rcases hv with rfl | rfl <;> omega)] at hs
    simp [ArgObj.valid, choiceArg, validAll, hs, hc]
  · rw [if_neg hv] at hc ⊢
    by_cases hl : v.length > 2 ^ 64 - 1
    · rw [if_pos hl] at hs
      simp [ArgObj.valid, choiceArg, validAll, hs]
    · rw [if_neg hl] at hs
      simp [ArgObj.valid, choiceArg, validAll, hs, hc]

theorem stoi_range {v : Str} {n : Int} (h : stoi v = .ok n) : -2 ^ 31 ≤ n ∧ n < 2 ^ 31 := by
  unfold stoi at h
  cases hs : strtol v with
  | none => rw [hs] at h; cases h
  | some m =>
    rw [hs] at h
    simp only at h
    split at h
    · cases h
    · cases h; omega

theorem intArg_valid (fs : FS) {n : Int} (h : -2 ^ 31 ≤ n ∧ n < 2 ^ 31) :
    (newArgumentInt (D := D)).valid fs n = .ok newArgumentInt := by
  have hc : newPropertyInt.vt.valid fs n newPropertyInt.opts = .ok newPropertyInt.opts := by
    show (if n < -2147483648 then _ else if n > 2147483647 then _ else _) = _
    rw [if_neg (by omega), if_neg (by omega)]
  simp [ArgObj.valid, newArgumentInt, validAll, hc]

theorem parseArg_value [Dbl D] (fs : FS) (p : Parser D) (hp : Cfg p) {f s t : Str} {k : Kind} (h : (f, s, k) ∈ valueFlags)
    (ht : t = f ∨ t = s) (rest : List Str) (hfile : ∀ g ∉ fileNames, p.fileArg.get g = none)
    (hfile2 : ∀ g ∈ fileNames, (p.fileArg.get g).isSome = true) :
    parseArg fs p t rest = match rest with
      | [] => .throw .runtimeError
      | v :: _ => setVal fs p f k v >>= fun q => .ok (q, 1) := by
  have hr : resolve p t = f := by
    rw [resolve_names, hp.names]
    have := resolve_value _ h
    rcases ht with rfl | rfl
    · exact this.1
    · exact this.2
  unfold parseArg
  rw [hr]
  simp only
  cases k with
  | spin =>
    have hk : ∀ x ∈ valueFlags, x.2.2 = .spin → x.1 ∈ [lit "--spin_P", lit "--spin_1", lit "--spin_2"] := by decide
    have hm := hk _ h rfl
    have h1 : p.strArg.get f = some (choiceArg [lit "Alpha", lit "Beta"]) := by
      rw [hp.strArg]
      simp only [List.mem_cons, List.not_mem_nil, or_false] at hm
      rcases hm with rfl | rfl | rfl <;> rfl
    have h1' : p.strArg.set f (choiceArg [lit "Alpha", lit "Beta"]) = p.strArg := by
      rw [hp.strArg]
      simp only [List.mem_cons, List.not_mem_nil, or_false] at hm
      rcases hm with rfl | rfl | rfl <;> rfl
    have h2 : p.switchArg.get f = none := by
      rw [hp.switchArg]
      simp only [List.mem_cons, List.not_mem_nil, or_false] at hm
      rcases hm with rfl | rfl | rfl <;> rfl
    have h3 : p.intArg.get f = none := by
      rw [hp.intArg]
      simp only [List.mem_cons, List.not_mem_nil, or_false] at hm
      rcases hm with rfl | rfl | rfl <;> rfl
    have h4 : p.doubleArg.get f = none := by rw [hp.doubleArg]; rfl
    have h5 : p.fileArg.get f = none := by
      apply hfile
      have : ∀ x ∈ [lit "--spin_P", lit "--spin_1", lit "--spin_2"], x ∉ fileNames := by decide
      exact this _ hm
    cases rest with
    | nil => simp [strStage, h1]
    | cons v r =>
      simp only [strStage, h1, List.drop_zero, choiceArg_valid fs (lit "Alpha") (lit "Beta") v (by decide) (by decide), setVal]
      split
      · simp [switchStage, h2, intStage, h3, doubleStage, h4, fileStage, h5, h1']
      · rfl
  | otype =>
    have hk : ∀ x ∈ valueFlags, x.2.2 = .otype → x.1 ∈ [lit "--orbital_type_1", lit "--orbital_type_2"] := by decide
    have hm := hk _ h rfl
    have h1 : p.strArg.get f = some (choiceArg [lit "HOMO", lit "LUMO"]) := by
      rw [hp.strArg]
      simp only [List.mem_cons, List.not_mem_nil, or_false] at hm
      rcases hm with rfl | rfl <;> rfl
    have h1' : p.strArg.set f (choiceArg [lit "HOMO", lit "LUMO"]) = p.strArg := by
      rw [hp.strArg]
      simp only [List.mem_cons, List.not_mem_nil, or_false] at hm
      rcases hm with rfl | rfl <;> rfl
    have h2 : p.switchArg.get f = none := by
      rw [hp.switchArg]
      simp only [List.mem_cons, List.not_mem_nil, or_false] at hm
      rcases hm with rfl | rfl <;> rfl
    have h3 : p.intArg.get f = none := by
      rw [hp.intArg]
      simp only [List.mem_cons, List.not_mem_nil, or_false] at hm
      rcases hm with rfl | rfl <;> rfl
    have h4 : p.doubleArg.get f = none := by rw [hp.doubleArg]; rfl
    have h5 : p.fileArg.get f = none := by
      apply hfile
      have : ∀ x ∈ [lit "--orbital_type_1", lit "--orbital_type_2"], x ∉ fileNames := by decide
      exact this _ hm
    cases rest with
    | nil => simp [strStage, h1]
    | cons v r =>
      simp only [strStage, h1, List.drop_zero, choiceArg_valid fs (lit "HOMO") (lit "LUMO") v (by decide) (by decide), setVal]
      split
      · simp [switchStage, h2, intStage, h3, doubleStage, h4, fileStage, h5, h1']
      · rfl
  | onum =>
    have hk : ∀ x ∈ valueFlags, x.2.2 = .onum → x.1 ∈ [lit "--orbital_num_1", lit "--orbital_num_2"] := by decide
    have hm := hk _ h rfl
    have h1 : p.strArg.get f = none := by
      rw [hp.strArg]
      simp only [List.mem_cons, List.not_mem_nil, or_false] at hm
      rcases hm with rfl | rfl <;> rfl
    have h2 : p.switchArg.get f = none := by
      rw [hp.switchArg]
      simp only [List.mem_cons, List.not_mem_nil, or_false] at hm
      rcases hm with rfl | rfl <;> rfl
    have h3 : p.intArg.get f = some newArgumentInt := by
      rw [hp.intArg]
      simp only [List.mem_cons, List.not_mem_nil, or_false] at hm
      rcases hm with rfl | rfl <;> rfl
    have h3' : p.intArg.set f newArgumentInt = p.intArg := by
      rw [hp.intArg]
      simp only [List.mem_cons, List.not_mem_nil, or_false] at hm
      rcases hm with rfl | rfl <;> rfl
    have h4 : p.doubleArg.get f = none := by rw [hp.doubleArg]; rfl
    have h5 : p.fileArg.get f = none := by
      apply hfile
      have : ∀ x ∈ [lit "--orbital_num_1", lit "--orbital_num_2"], x ∉ fileNames := by decide
      exact this _ hm
    cases rest with
    | nil => simp [strStage, h1, switchStage, h2, intStage, h3]
    | cons v r =>
      simp only [strStage, h1, switchStage, h2, intStage, h3, List.drop_zero, setVal, Res.ok_bind]
      cases hs : stoi v with
      | ok n => simp [intArg_valid fs (stoi_range hs), doubleStage, h4, fileStage, h5, h3']
      | _ => rfl
  | pun =>
    have hk : ∀ x ∈ valueFlags, x.2.2 = .pun → x.1 ∈ fileNames := by decide
    have hm := hk _ h rfl
    obtain ⟨a, ha⟩ := Option.isSome_iff_exists.1 (hfile2 f hm)
    have h1 : p.strArg.get f = none := by
      have : ∀ x ∈ fileNames, calcStrArg.get x = none (α := ArgObj Str D) := by
        simp only [fileNames, List.mem_cons, List.not_mem_nil, or_false]
        rintro x (rfl | rfl | rfl | rfl | rfl | rfl) <;> rfl
      rw [hp.strArg, this _ hm]
    have h2 : p.switchArg.get f = none := by
      have : ∀ x ∈ fileNames, calcSwitchArg.get x = none (α := ArgObj Str D) := by
        simp only [fileNames, List.mem_cons, List.not_mem_nil, or_false]
        rintro x (rfl | rfl | rfl | rfl | rfl | rfl) <;> rfl
      rw [hp.switchArg, this _ hm]
    have h3 : p.intArg.get f = none := by
      have : ∀ x ∈ fileNames, calcIntArg.get x = none (α := ArgObj Int D) := by
        simp only [fileNames, List.mem_cons, List.not_mem_nil, or_false]
        rintro x (rfl | rfl | rfl | rfl | rfl | rfl) <;> rfl
      rw [hp.intArg, this _ hm]
    have h4 : p.doubleArg.get f = none := by rw [hp.doubleArg]; rfl
    cases rest with
    | nil => simp [strStage, h1, switchStage, h2, intStage, h3, doubleStage, h4, fileStage, ha]
    | cons v r =>
      simp only [strStage, h1, switchStage, h2, intStage, h3, doubleStage, h4, fileStage, ha, List.drop_zero, setVal, Res.ok_bind]
      cases a.valid fs v <;> simp
  | log =>
    have hk : ∀ x ∈ valueFlags, x.2.2 = .log → x.1 ∈ fileNames := by decide
    have hm := hk _ h rfl
    obtain ⟨a, ha⟩ := Option.isSome_iff_exists.1 (hfile2 f hm)
    have h1 : p.strArg.get f = none := by
      have : ∀ x ∈ fileNames, calcStrArg.get x = none (α := ArgObj Str D) := by
        simp only [fileNames, List.mem_cons, List.not_mem_nil, or_false]
        rintro x (rfl | rfl | rfl | rfl | rfl | rfl) <;> rfl
      rw [hp.strArg, this _ hm]
    have h2 : p.switchArg.get f = none := by
      have : ∀ x ∈ fileNames, calcSwitchArg.get x = none (α := ArgObj Str D) := by
        simp only [fileNames, List.mem_cons, List.not_mem_nil, or_false]
        rintro x (rfl | rfl | rfl | rfl | rfl | rfl) <;> rfl
      rw [hp.switchArg, this _ hm]
    have h3 : p.intArg.get f = none := by
      have : ∀ x ∈ fileNames, calcIntArg.get x = none (α := ArgObj Int D) := by
        simp only [fileNames, List.mem_cons, List.not_mem_nil, or_false]
        rintro x (rfl | rfl | rfl | rfl | rfl | rfl) <;> rfl
      rw [hp.intArg, this _ hm]
    have h4 : p.doubleArg.get f = none := by rw [hp.doubleArg]; rfl
    cases rest with
    | nil => simp [strStage, h1, switchStage, h2, intStage, h3, doubleStage, h4, fileStage, ha]
    | cons v r =>
      simp only [strStage, h1, switchStage, h2, intStage, h3, doubleStage, h4, fileStage, ha, List.drop_zero, setVal, Res.ok_bind]
      cases a.valid fs v <;> simp

end
end Verif.Args
