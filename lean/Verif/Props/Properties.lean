import Verif.Arguments
import Verif.Spec.Args
import Verif.Props.Strings
import Mathlib.Order.Defs.LinearOrder
import Mathlib.Data.List.Induction
/-
Properties C49 - C57: what argument properties accept.
-/
namespace Verif.Args
open Strings

private theorem lastFor_append {K V : Type} [DecidableEq K] (key : K) (d : V) (h : List (K × V)) (k : K) (v : V) :
    lastFor key d (h ++ [(k, v)]) = if k = key then v else lastFor key d h := by
  induction h generalizing d with
  | nil => simp [lastFor]
  | cons p h ih => obtain ⟨k', v'⟩ := p; simp [lastFor, ih]

/-! ### C49: integers -/

/-- A call of `setArgPropertyOpt(property, option, int)` by a caller that catches the exception. -/
def trySetInt {S D : Type} (a : ArgObj S D) (c : (Str × Str) × Int) : ArgObj S D :=
  match a.setInt c.1.1 c.1.2 c.2 with
  | .ok a' => a'
  | _ => a

private theorem setInt_newInt {D : Type} (o : Map Int) (hm : (o.get (lit "MIN")).isSome) (hM : (o.get (lit "MAX")).isSome)
    (hk : ∀ k, k ≠ (lit "MIN") → k ≠ (lit "MAX") → o.get k = none) (c : (Str × Str) × Int) :
    ∃ o', trySetInt (⟨(lit "ARGUMENT_INT"), [⟨intVT, o⟩], [], [], [], [], []⟩ : ArgObj Int D) c =
        ⟨(lit "ARGUMENT_INT"), [⟨intVT, o'⟩], [], [], [], [], []⟩ ∧
      (o'.get (lit "MIN") = if c.1 = ((lit "PROPERTY_INT"), (lit "MIN")) then some c.2 else o.get (lit "MIN")) ∧
      (o'.get (lit "MAX") = if c.1 = ((lit "PROPERTY_INT"), (lit "MAX")) then some c.2 else o.get (lit "MAX")) ∧
      (∀ k, k ≠ (lit "MIN") → k ≠ (lit "MAX") → o'.get k = none) := by
  obtain ⟨⟨pr, op⟩, v⟩ := c
  by_cases hpr : pr = (lit "PROPERTY_INT")
  · subst hpr
    cases ho : o.get op with
    | none =>
      have h1 : op ≠ (lit "MIN") := by rintro rfl; rw [ho] at hm; cases hm
      have h2 : op ≠ (lit "MAX") := by rintro rfl; rw [ho] at hM; cases hM
      refine ⟨o, ?_, ?_, ?_, hk⟩
      · simp [trySetInt, ArgObj.setInt, setAll, setOpt, ho, intVT]
      · rw [if_neg]; simpa using h1
      · rw [if_neg]; simpa using h2
    | some x =>
      refine ⟨o.set op v, ?_, ?_, ?_, ?_⟩
      · simp [trySetInt, ArgObj.setInt, setAll, setOpt, ho, intVT]
      · simp [Map.get_set, eq_comm]
      · simp [Map.get_set, eq_comm]
      · intro k h1 h2
        rw [Map.get_set_ne _ _, hk k h1 h2]
        rintro rfl; rw [hk _ h1 h2] at ho; cases ho
  · refine ⟨o, ?_, ?_, ?_, hk⟩
    · have : ¬ pr = intVT.name := hpr
      simp [trySetInt, ArgObj.setInt, setAll, this]
    · rw [if_neg]; simp [hpr]
    · rw [if_neg]; simp [hpr]

private theorem setInts_newInt {D : Type} (h : List ((Str × Str) × Int)) :
    ∃ o, h.foldl trySetInt (newArgumentInt : ArgObj Int D) =
        ⟨(lit "ARGUMENT_INT"), [⟨intVT, o⟩], [], [], [], [], []⟩ ∧
      o.get (lit "MIN") = some (lastFor ((lit "PROPERTY_INT"), (lit "MIN")) (-2147483648) h) ∧
      o.get (lit "MAX") = some (lastFor ((lit "PROPERTY_INT"), (lit "MAX")) 2147483647 h) ∧
      (∀ k, k ≠ (lit "MIN") → k ≠ (lit "MAX") → o.get k = none) := by
  induction h using List.reverseRecOn with
  | nil =>
    refine ⟨_, rfl, rfl, rfl, ?_⟩
    intro k h1 h2
    show (Map.set (Map.set [] _ _) _ _).get k = none
    rw [Map.get_set_ne _ h2, Map.get_set_ne _ h1]; rfl
  | append_singleton h c ih =>
    obtain ⟨o, e, h1, h2, h3⟩ := ih
    obtain ⟨o', e', h1', h2', h3'⟩ := setInt_newInt (D := D) o (by rw [h1]; rfl) (by rw [h2]; rfl) h3 c
    refine ⟨o', ?_, ?_, ?_, h3'⟩
    · rw [List.foldl_append, e]; exact e'
    · obtain ⟨k, v⟩ := c
      rw [h1', lastFor_append, h1]; split <;> rfl
    · obtain ⟨k, v⟩ := c
      rw [h2', lastFor_append, h2]; split <;> rfl

/-- C49: after any history of option settings (rejected ones caught), an integer argument accepts a value exactly when it
lies between the last MIN and the last MAX set (`int` limits by default), and throws `invalid_argument` otherwise. -/
theorem C49_int {D : Type} (fs : FS) (history : List ((Str × Str) × Int)) (v : Int) :
    let a : ArgObj Int D := history.foldl trySetInt newArgumentInt
    let lo := lastFor ((lit "PROPERTY_INT"), (lit "MIN")) (-2147483648) history
    let hi := lastFor ((lit "PROPERTY_INT"), (lit "MAX")) 2147483647 history
    (lo ≤ v ∧ v ≤ hi → a.valid fs v = .ok a) ∧ (¬ (lo ≤ v ∧ v ≤ hi) → a.valid fs v = .throw .invalidArgument) := by
  intro a lo hi
  obtain ⟨o, e, h1, h2, -⟩ := setInts_newInt (D := D) history
  have ha : a = _ := e
  have key : intValid fs v o = if v < lo then .throw .invalidArgument else if v > hi then .throw .invalidArgument else .ok o := by
    unfold intValid getOpt; rw [h1, h2]; rfl
  rw [ha]
  constructor
  · rintro ⟨hlo, hhi⟩
    rw [if_neg (by omega), if_neg (by omega)] at key
    simp [ArgObj.valid, validAll, intVT, key]
  · intro hn
    have : intValid fs v o = .throw .invalidArgument := by
      rw [key]; split
      · rfl
      · rw [if_pos (by omega)]
    simp [ArgObj.valid, validAll, intVT, this]

/-- Three setter calls, one of them rejected, then two values. -/
example : let h := [(((lit "PROPERTY_INT"), (lit "MIN")), (2 : Int)), (((lit "PROPERTY_INT"), (lit "NONE")), 9),
      (((lit "PROPERTY_INT"), (lit "MIN")), 3)]
    lastFor ((lit "PROPERTY_INT"), (lit "MIN")) (-2147483648) h = 3 ∧
    ((h.foldl trySetInt (newArgumentInt : ArgObj Int Int)).valid (fun _ => true) 3).isOk = true ∧
    ((h.foldl trySetInt (newArgumentInt : ArgObj Int Int)).valid (fun _ => true) 2).isOk = false := by decide

/-! ### C50: floating point -/

/-- C50 (partial): on values that are linearly ordered by the comparison (all doubles except NaN), a double property with
bounds `lo`, `hi` accepts exactly the values between them. Missing: NaN, where the claim is false (`C50_refuted`). -/
theorem C50_range_partial {D : Type} [Dbl D] [LinearOrder D] (hlt : ∀ a b : D, Dbl.lt a b = true ↔ a < b)
    (fs : FS) (o : Map D) (lo hi v : D) (h1 : getOpt o (lit "MIN") = .ok lo) (h2 : getOpt o (lit "MAX") = .ok hi) :
    (lo ≤ v ∧ v ≤ hi → (doubleVT (D := D)).valid fs v o = .ok o) ∧
    (¬ (lo ≤ v ∧ v ≤ hi) → (doubleVT (D := D)).valid fs v o = .throw .invalidArgument) := by
  have key : doubleValid fs v o = if v < lo then .throw .invalidArgument else if hi < v then .throw .invalidArgument else .ok o := by
    unfold doubleValid
    rw [h1, h2]
    simp only [Res.ok_bind, hlt]
  constructor
  · rintro ⟨a, b⟩
    show doubleValid fs v o = _
    rw [key, if_neg (not_lt.2 a), if_neg (not_lt.2 b)]
  · intro hn
    show doubleValid fs v o = _
    rw [key]
    split
    · rfl
    · rename_i h
      rw [if_pos]
      rw [not_and] at hn
      exact not_le.1 (hn (not_lt.1 h))

/-- C50 is false for NaN: a value that compares false with everything is accepted whatever the bounds. -/
theorem C50_refuted {D : Type} [Dbl D] (nan : D) (h1 : ∀ x : D, Dbl.lt nan x = false) (h2 : ∀ x : D, Dbl.lt x nan = false)
    (fs : FS) (o : Map D) (lo hi : D) (hlo : getOpt o (lit "MIN") = .ok lo) (hhi : getOpt o (lit "MAX") = .ok hi) :
    (doubleVT (D := D)).valid fs nan o = .ok o := by
  show doubleValid fs nan o = _
  unfold doubleValid
  rw [hlo, hhi]
  simp [h1, h2]

/-- C50 (every value, NaN included): whatever the comparison says, a value is rejected exactly if it compares less than the lower bound
or the upper bound compares less than it. -/
theorem C50_always {D : Type} [Dbl D] (fs : FS) (o : Map D) (lo hi v : D) (h1 : getOpt o (lit "MIN") = .ok lo)
    (h2 : getOpt o (lit "MAX") = .ok hi) :
    ((Dbl.lt v lo = true ∨ Dbl.lt hi v = true) → (doubleVT (D := D)).valid fs v o = .throw .invalidArgument) ∧
    (Dbl.lt v lo = false → Dbl.lt hi v = false → (doubleVT (D := D)).valid fs v o = .ok o) := by
  have key : (doubleVT (D := D)).valid fs v o =
      if Dbl.lt v lo then .throw .invalidArgument else if Dbl.lt hi v then .throw .invalidArgument else .ok o := by
    show doubleValid fs v o = _
    unfold doubleValid
    rw [h1, h2]
    rfl
  rw [key]
  constructor
  · rintro (h | h) <;> simp [h]
  · intro h h'; simp [h, h']

/-- Doubles with a NaN: `none`. -/
@[instance_reducible] def dblNaN : Dbl (Option Int) where
  lt a b := match a, b with
    | some x, some y => decide (x < y)
    | _, _ => false
  lowest := some (-1000)
  max := some 1000
  stod s := match stoi s with
    | .ok v => .ok (some v)
    | .throw e => .throw e
    | _ => .ub
  toStr x := match x with
    | some v => intToStr v
    | none => (lit "nan")

/-- The hypotheses of `C50_refuted` are met by a double type with NaN, and the bounds can be any: here [1, 2]. -/
example : (@newPropertyDouble (Option Int) dblNaN).vt.valid (fun _ => true) none
      [((lit "MAX"), some 2), ((lit "MIN"), some 1)] = .ok [((lit "MAX"), some 2), ((lit "MIN"), some 1)] ∧
    (@newPropertyDouble (Option Int) dblNaN).vt.valid (fun _ => true) (some 3)
      [((lit "MAX"), some 2), ((lit "MIN"), some 1)] = .throw .invalidArgument := by decide

/-! ### C51: string length -/

/-- C51: with bounds `lo`, `hi` a string is accepted exactly when its length lies between them. -/
theorem C51_length (fs : FS) (o : Map Nat) (lo hi : Nat) (s : Str) (h1 : getOpt o (lit "MIN_LENGTH") = .ok lo)
    (h2 : getOpt o (lit "MAX_LENGTH") = .ok hi) :
    (lo ≤ s.length ∧ s.length ≤ hi → stringVT.valid fs s o = .ok o) ∧
    (¬ (lo ≤ s.length ∧ s.length ≤ hi) → stringVT.valid fs s o = .throw .invalidArgument) := by
  have key : stringValid fs s o = if s.length > hi then .throw .invalidArgument
      else if s.length < lo then .throw .invalidArgument else .ok o := by
    unfold stringValid; rw [h1, h2]; rfl
  constructor
  · rintro ⟨a, b⟩
    show stringValid fs s o = _
    rw [key, if_neg (by omega), if_neg (by omega)]
  · intro hn
    show stringValid fs s o = _
    rw [key]; split
    · rfl
    · rw [if_pos (by omega)]

/-- C51 (bounds): setting an option of the property makes it the value in force; the other one is unaffected. -/
theorem C51_set (o o' : Map Nat) (option : Str) (n : Nat) (h : setOpt o option n = .ok o') :
    getOpt o' option = .ok n ∧ ∀ k, k ≠ option → getOpt o' k = getOpt o k := by
  unfold setOpt at h
  split at h
  · cases h
  · cases h
    constructor
    · simp [getOpt]
    · intro k hk; simp [getOpt, Map.get_set_ne _ hk]

/-- C51 (default): a fresh string argument accepts every string that can exist. -/
theorem C51_default {D : Type} (fs : FS) (s : Str) (hs : Fits s) :
    (newArgumentString : ArgObj Str D).valid fs s = .ok newArgumentString := by
  have h := (C51_length fs newPropertyString.opts 0 (2 ^ 64 - 1) s (by decide) (by decide)).1
    ⟨Nat.zero_le _, by have := hs; unfold Fits at this; omega⟩
  have h' : newPropertyString.vt.valid fs s newPropertyString.opts = .ok newPropertyString.opts := h
  have h2 : newPropertyStringChoice.vt.valid fs s newPropertyStringChoice.opts = .ok newPropertyStringChoice.opts := rfl
  simp [ArgObj.valid, newArgumentString, validAll, h', h2]

/-- C51 (a limitation): the length bounds of a string argument cannot be changed through the argument; every overload of
`setArgPropertyOpt` rejects the property PROPERTY_STRING. -/
theorem C51_argument_cannot_set {D : Type} (option : Str) (n : Int) (d : D) (s : Str) (l : List Str) :
    let a : ArgObj Str D := newArgumentString
    a.setInt (lit "PROPERTY_STRING") option n = .throw .invalidArgument ∧
    a.setDouble (lit "PROPERTY_STRING") option d = .throw .invalidArgument ∧
    a.setStr (lit "PROPERTY_STRING") option s = .throw .invalidArgument ∧
    a.setSet (lit "PROPERTY_STRING") option l = .throw .invalidArgument ∧
    a.setVec (lit "PROPERTY_STRING") option l = .throw .invalidArgument := by
  refine ⟨rfl, rfl, rfl, rfl, rfl⟩

/-! ### C52: string choices -/

/-- A call of one of the two setters of `PropertyStringChoice`. -/
inductive ChoiceCall
  | str (option var : Str)
  | set (option : Str) (vars : List Str)

/-- The call's effect on the object and its outcome. -/
def choiceCall (o : Map (List Str)) : ChoiceCall → Map (List Str) × Res Unit
  | .str option var => choiceSetStr o option var
  | .set option vars => choiceSetSet o option vars

private theorem choice_inv (o : Map (List Str)) (c : ChoiceCall)
    (h1 : ∃ e, getOpt o (lit "STRING_CHOICE_ENFORCED") = .ok [e] ∧ (e = (lit "true") ∨ e = (lit "false")))
    (h2 : ∃ cs, getOpt o (lit "STRING_CHOICES") = .ok cs) :
    (∃ e, getOpt (choiceCall o c).1 (lit "STRING_CHOICE_ENFORCED") = .ok [e] ∧ (e = (lit "true") ∨ e = (lit "false"))) ∧
    (∃ cs, getOpt (choiceCall o c).1 (lit "STRING_CHOICES") = .ok cs) := by
  have hne : (lit "STRING_CHOICES") ≠ (lit "STRING_CHOICE_ENFORCED") := by decide
  cases c with
  | str option var =>
    simp only [choiceCall]
    unfold choiceSetStr
    split
    · rename_i ho; subst ho
      split
      · rename_i hv
        refine ⟨⟨var, by simp [getOpt], hv.symm⟩, ?_⟩
        simpa [getOpt, Map.get_set_ne _ hne] using h2
      · exact ⟨h1, h2⟩
    · split
      · rename_i ho; subst ho
        exact ⟨by simpa [getOpt, Map.get_set_ne _ hne.symm] using h1, ⟨[var], by simp [getOpt]⟩⟩
      · exact ⟨h1, h2⟩
  | set option vars =>
    simp only [choiceCall]
    unfold choiceSetSet
    split
    · rename_i ho; subst ho
      exact ⟨by simpa [getOpt, Map.get_set_ne _ hne.symm] using h1, ⟨vars, by simp [getOpt]⟩⟩
    · split
      · rename_i ho; subst ho
        split
        · exact ⟨h1, h2⟩
        · split
          · exact ⟨h1, h2⟩
          · rename_i var tl hl
            have : tl = [] := by
              cases tl with
              | nil => rfl
              | cons => simp at hl
            subst this
            split
            · rename_i hv
              refine ⟨⟨var, by simp [getOpt], hv.symm⟩, ?_⟩
              simpa [getOpt, Map.get_set_ne _ hne] using h2
            · exact ⟨h1, h2⟩
      · exact ⟨h1, h2⟩

/-- C52: after any history of calls of the property's setters (rejected ones caught), STRING_CHOICE_ENFORCED is `true` or
`false`, and a string is accepted exactly when it is `false` or the string is one of STRING_CHOICES. -/
theorem C52_choice (fs : FS) (history : List ChoiceCall) (s : Str) :
    let o := history.foldl (fun o c => (choiceCall o c).1) newPropertyStringChoice.opts
    ∃ e cs, getOpt o (lit "STRING_CHOICE_ENFORCED") = .ok [e] ∧ (e = (lit "true") ∨ e = (lit "false")) ∧
      getOpt o (lit "STRING_CHOICES") = .ok cs ∧
      ((e = (lit "true") → s ∈ cs) → choiceVT.valid fs s o = .ok o) ∧
      (¬ (e = (lit "true") → s ∈ cs) → choiceVT.valid fs s o = .throw .invalidArgument) := by
  intro o
  have hinv : (∃ e, getOpt o (lit "STRING_CHOICE_ENFORCED") = .ok [e] ∧ (e = (lit "true") ∨ e = (lit "false"))) ∧
      (∃ cs, getOpt o (lit "STRING_CHOICES") = .ok cs) := by
    show (∃ e, getOpt (history.foldl _ _) _ = _ ∧ _) ∧ _
    induction history using List.reverseRecOn with
    | nil => exact ⟨⟨_, rfl, .inr rfl⟩, ⟨_, rfl⟩⟩
    | append_singleton h c ih =>
      obtain ⟨a, b⟩ := ih
      have := choice_inv _ c a b
      simpa [o, List.foldl_append] using this
  obtain ⟨⟨e, h1, h1'⟩, cs, h2⟩ := hinv
  refine ⟨e, cs, h1, h1', h2, ?_, ?_⟩
  · intro h
    show choiceValid fs s o = _
    unfold choiceValid
    rw [h1, h2]
    simp only [Res.ok_bind, begin]
    by_cases he : e = (lit "true")
    · rw [if_pos he, if_pos (h he)]
    · rw [if_neg he]
  · intro h
    show choiceValid fs s o = _
    unfold choiceValid
    rw [h1, h2]
    simp only [Res.ok_bind, begin]
    have he : e = (lit "true") := by
      by_contra hc; exact h (fun x => absurd x hc)
    rw [if_pos he, if_neg (fun hs => h (fun _ => hs))]

/-- C52 (settings are effective): a set of choices given is the set in force, and enforcement is on after it was set. -/
theorem C52_set (o : Map (List Str)) (cs : List Str) (e : Str) (he : e = (lit "true") ∨ e = (lit "false")) :
    (choiceSetSet o (lit "STRING_CHOICES") cs).2 = .ok () ∧
    getOpt (choiceSetSet o (lit "STRING_CHOICES") cs).1 (lit "STRING_CHOICES") = .ok cs ∧
    (choiceSetStr o (lit "STRING_CHOICE_ENFORCED") e).2 = .ok () ∧
    getOpt (choiceSetStr o (lit "STRING_CHOICE_ENFORCED") e).1 (lit "STRING_CHOICE_ENFORCED") = .ok [e] := by
  have hne : (lit "STRING_CHOICE_ENFORCED") ≠ (lit "STRING_CHOICES") := by decide
  simp [choiceSetSet, choiceSetStr, getOpt, he.symm]

/-- C52 (a defect found): giving STRING_CHOICES a single string stores it and nevertheless throws. -/
theorem C52_single_choice_throws (o : Map (List Str)) (v : Str) :
    choiceSetStr o (lit "STRING_CHOICES") v = (o.set (lit "STRING_CHOICES") [v], .throw .invalidArgument) := rfl

example : let h := [ChoiceCall.set (lit "STRING_CHOICES") [(lit "Alpha"), (lit "Beta")],
      .str (lit "STRING_CHOICE_ENFORCED") (lit "true"), .str (lit "STRING_CHOICE_ENFORCED") (lit "yes")]
    let o := h.foldl (fun o c => (choiceCall o c).1) newPropertyStringChoice.opts
    (choiceValid (fun _ => true) (lit "Beta") o).isOk = true ∧ (choiceValid (fun _ => true) (lit "beta") o).isOk = false := by
  decide

/-! ### C53: switches -/

/-- The documented spellings of "on" and "off". -/
def onWords : List Str := [(lit "1"), (lit "ON"), (lit "TRUE")]
def offWords : List Str := [(lit "0"), (lit "OFF"), (lit "FALSE")]

/-- C53: a switch argument accepts exactly 0, 1, ON, OFF, TRUE, FALSE, and interprets them as on or off accordingly. -/
theorem C53_switch {D : Type} (fs : FS) (s : Str) :
    let a : ArgObj Str D := newArgumentSwitch
    (s ∈ onWords → a.valid fs s = .ok a ∧ positive s = .ok true) ∧
    (s ∈ offWords → a.valid fs s = .ok a ∧ positive s = .ok false) ∧
    (s ∉ onWords → s ∉ offWords → a.valid fs s = .throw .invalidArgument ∧ positive s = .throw .invalidArgument) := by
  intro a
  refine ⟨?_, ?_, ?_⟩
  · intro h
    simp only [onWords, List.mem_cons, List.not_mem_nil, or_false] at h
    rcases h with rfl | rfl | rfl <;> exact ⟨rfl, rfl⟩
  · intro h
    simp only [offWords, List.mem_cons, List.not_mem_nil, or_false] at h
    rcases h with rfl | rfl | rfl <;> exact ⟨rfl, rfl⟩
  · intro h1 h2
    simp only [onWords, List.mem_cons, List.not_mem_nil, or_false, not_or] at h1
    simp only [offWords, List.mem_cons, List.not_mem_nil, or_false, not_or] at h2
    constructor
    · have : switchValid fs s newPropertySwitch.opts = .throw .invalidArgument := by
        unfold switchValid
        rw [if_pos ⟨h2.1, h1.1, h1.2.1, h2.2.1, h1.2.2, h2.2.2⟩]
      have h' : newPropertySwitch.vt.valid fs s newPropertySwitch.opts = .throw .invalidArgument := this
      simp [a, ArgObj.valid, newArgumentSwitch, validAll, h']
    · unfold positive
      rw [if_neg (by rintro (h | h | h); exacts [h1.2.1 h, h1.2.2 h, h1.1 h]),
        if_neg (by rintro (h | h | h); exacts [h2.2.1 h, h2.2.2 h, h2.1 h])]

/-- C53 (integers given to a switch): 0 and 1 only, 1 meaning on. -/
theorem C53_switch_int (n : Int) : (switchValidInt n = .ok () ↔ n = 0 ∨ n = 1) ∧ (positiveInt n = true ↔ n = 1) := by
  constructor
  · unfold switchValidInt; split
    · constructor
      · intro h; cases h
      · omega
    · simp; omega
  · simp [positiveInt]

/-! ### C54: file extensions -/

/-- Every path has parts. -/
theorem PathParts.exists (path : Str) : ∃ dir core ext, PathParts path dir core ext := by
  obtain ⟨d, f, -, -, e, h1, h2⟩ := C43_path path
  by_cases hdot : '.' ∈ f
  · have key : ∀ f : Str, '.' ∈ f → ∃ b a, f = b ++ '.' :: a ∧ '.' ∉ a := by
      intro f
      induction f with
      | nil => intro h; simp at h
      | cons c f ih =>
        intro h
        by_cases hf : '.' ∈ f
        · obtain ⟨b, a, h1, h2⟩ := ih hf
          exact ⟨c :: b, a, by rw [h1]; rfl, h2⟩
        · have : c = '.' := by
            rcases List.mem_cons.1 h with h | h
            · exact h.symm
            · exact absurd h hf
          exact ⟨[], f, by rw [this]; rfl, hf⟩
    obtain ⟨b, a, hf, ha⟩ := key f hdot
    exact ⟨d, b, '.' :: a, by rw [e, hf, List.append_assoc], h2, by rw [← hf]; exact h1, .inr ⟨a, rfl, ha⟩⟩
  · exact ⟨d, f, [], by rw [e]; simp, h2, by simpa using h1, .inl ⟨rfl, hdot⟩⟩

theorem PathParts.file {path dir core ext : Str} (h : PathParts path dir core ext) (hf : Fits path) :
    getPath path = .ok dir ∧ lastStringInPath path = .ok (core ++ ext) ∧
    grabStrBeforeLastOccurance (core ++ ext) (lit ".") = .ok core ∧
    grabStrAfterLastOccuranceInclusive (core ++ ext) (lit ".") = .ok ext ∧ extCheck ext = .ok () := by
  obtain ⟨h1, h2⟩ := C43_path_unique (s := path) (d := dir) (f := core ++ ext) (by rw [h.eq, List.append_assoc]) h.no_sep
    h.dir_ends
  have hs : Fits (core ++ ext) := by
    have := congrArg List.length h.eq
    unfold Fits at *; simp at this ⊢; omega
  have hdot : (lit ".") = ['.'] := by decide
  rcases h.ext_dot with ⟨he, hc⟩ | ⟨e, he, hc⟩
  · subst he
    obtain ⟨g1, -, -, g4⟩ := C47_last_none (core ++ []) (lit ".") (by simpa [hdot] using hc)
    exact ⟨h1, h2, by rw [g1]; simp, g4, rfl⟩
  · obtain ⟨b, a, g1, -, g3, g4, -, g6⟩ := C47_last_partial (core ++ ext) '.' hs (by rw [he]; simp)
    have hba : b = core ∧ a = e := by
      have hh : b ++ '.' :: a = core ++ '.' :: e := by rw [he] at g3; simpa using g3.symm
      have : ∀ {x y : Str} {x' y' : Str}, x ++ '.' :: y = x' ++ '.' :: y' → '.' ∉ y → '.' ∉ y' → x = x' ∧ y = y' := by
        intro x
        induction x with
        | nil =>
          intro y x' y' h hy hy'
          cases x' with
          | nil => simpa using h
          | cons c x' =>
            simp only [List.nil_append, List.cons_append, List.cons.injEq] at h
            exact absurd (by rw [h.2]; simp) hy
        | cons c x ih =>
          intro y x' y' h hy hy'
          cases x' with
          | nil =>
            simp only [List.nil_append, List.cons_append, List.cons.injEq] at h
            exact absurd (by rw [← h.2]; simp) hy'
          | cons c' x' =>
            simp only [List.cons_append, List.cons.injEq] at h
            obtain ⟨a1, a2⟩ := ih h.2 hy hy'
            exact ⟨by rw [h.1, a1], a2⟩
      exact this hh g4 hc
    refine ⟨h1, h2, by rw [hdot, g1, hba.1], by rw [hdot, g6, hba.2, he], ?_⟩
    have hse : Fits ext := by
      unfold Fits at *; simp at hs ⊢; omega
    obtain ⟨b', a', k1, -, k3, k4, -, -⟩ := C47_last_partial ext '.' hse (by rw [he]; simp)
    have hb' : b' = [] := by
      cases b' with
      | nil => rfl
      | cons c b' =>
        rw [he] at k3
        simp only [List.cons_append, List.cons.injEq] at k3
        exact absurd (by rw [k3.2]; simp) hc
    unfold extCheck
    rw [if_neg (by rw [he]; simp), if_neg (by rw [he]; simp [char0]), hdot, k1, hb']
    simp

/-- C54: a file argument's extension property accepts a path exactly when the extension of its file name (from the last
dot on, empty without dot) is one of ALLOWED_FILE_EXT, or one of those starts with `*`. -/
theorem C54_ext (fs : FS) (o : Map (List Str)) (exts : List Str) (hexts : getOpt o (lit "ALLOWED_FILE_EXT") = .ok exts)
    {path dir core ext : Str} (hp : PathParts path dir core ext) (hf : Fits path) :
    ((ext ∈ exts ∨ ∃ t, '*' :: t ∈ exts) → fileExtVT.valid fs path o = .ok o) ∧
    (¬ (ext ∈ exts ∨ ∃ t, '*' :: t ∈ exts) → fileExtVT.valid fs path o = .throw .invalidArgument) := by
  obtain ⟨-, h2, -, h4, h5⟩ := hp.file hf
  have key : fileExtValid fs path o = (do extSupported exts ext; .ok o) := by
    unfold fileExtValid
    rw [h2]; simp only [Res.ok_bind]; rw [h4]; simp only [Res.ok_bind]; rw [h5]; simp only [Res.ok_bind]
    rw [hexts]; rfl
  have hany : exts.any (fun e => char0 e == '*' || e == ext) = true ↔ (ext ∈ exts ∨ ∃ t, '*' :: t ∈ exts) := by
    rw [List.any_eq_true]
    constructor
    · rintro ⟨e, he, h⟩
      simp only [Bool.or_eq_true, beq_iff_eq] at h
      rcases h with h | h
      · cases e with
        | nil => exact absurd h (by decide)
        | cons c t => simp only [char0, List.headD_cons] at h; subst h; exact .inr ⟨t, he⟩
      · subst h; exact .inl he
    · rintro (h | ⟨t, h⟩)
      · exact ⟨_, h, by simp⟩
      · exact ⟨_, h, by simp [char0]⟩
  constructor
  · intro h
    show fileExtValid fs path o = _
    rw [key, extSupported, if_pos (hany.2 h)]; rfl
  · intro h
    show fileExtValid fs path o = _
    rw [key, extSupported, if_neg (fun hh => h (hany.1 hh))]; rfl

example : PathParts (lit "a.b/c.d.log") (lit "a.b/") (lit "c.d") (lit ".log") :=
  ⟨by decide, .inr ⟨(lit "a.b"), by decide⟩, by decide, .inr ⟨(lit "log"), by decide, by decide⟩⟩

/-! ### C55: existence -/

/-- Validating a sequence of paths one after the other (the property's object is kept). -/
def existValidateAll (fs : FS) (o : Map Int) (paths : List Str) : Res (Map Int) :=
  paths.foldlM (fun o p => fileExistVT.valid fs p o) o

/-- C55 (what holds): with FILE_MUST_EXIST off, after validating any sequence of paths FILE_DOES_EXIST is 1 exactly when
*some* path validated so far exists (or it was 1 before). -/
theorem C55_some_partial (fs : FS) (o : Map Int) (paths : List Str) (d : Int)
    (h1 : getOpt o (lit "FILE_MUST_EXIST") = .ok 0) (h2 : getOpt o (lit "FILE_DOES_EXIST") = .ok d) :
    ∃ o', existValidateAll fs o paths = .ok o' ∧ getOpt o' (lit "FILE_MUST_EXIST") = .ok 0 ∧
      getOpt o' (lit "FILE_DOES_EXIST") = .ok (if ∃ p ∈ paths, fs p = true then 1 else d) := by
  induction paths generalizing o d with
  | nil => exact ⟨o, rfl, h1, by simpa using h2⟩
  | cons p ps ih =>
    have hne : (lit "FILE_MUST_EXIST") ≠ (lit "FILE_DOES_EXIST") := by decide
    by_cases hp : fs p = true
    · have hv : fileExistVT.valid fs p o = .ok (o.set (lit "FILE_DOES_EXIST") 1) := by
        show fileExistValid fs p o = _
        unfold fileExistValid; rw [h1]; simp [hp]
      obtain ⟨o', e, g1, g2⟩ := ih (o.set (lit "FILE_DOES_EXIST") 1) 1
        (by rw [← h1]; unfold getOpt; rw [Map.get_set_ne _ hne]) (by simp [getOpt])
      refine ⟨o', by unfold existValidateAll at *; rw [List.foldlM_cons, hv]; exact e, g1, ?_⟩
      rw [g2, ite_self, if_pos ⟨p, List.mem_cons_self, hp⟩]
    · have hv : fileExistVT.valid fs p o = .ok o := by
        show fileExistValid fs p o = _
        unfold fileExistValid; rw [h1]; simp [hp]
      obtain ⟨o', e, g1, g2⟩ := ih o d h1 h2
      refine ⟨o', by unfold existValidateAll at *; rw [List.foldlM_cons, hv]; exact e, g1, ?_⟩
      rw [g2]
      have : (∃ q ∈ ps, fs q = true) ↔ ∃ q ∈ p :: ps, fs q = true := by simp [hp]
      simp only [this]

/-- C55 (one validation): a fresh property reports for the first path exactly whether it exists. Missing: the later ones. -/
theorem C55_first_partial (fs : FS) (path : Str) :
    ∃ o', fileExistVT.valid fs path newPropertyFileExist.opts = .ok o' ∧
      (getOpt o' (lit "FILE_DOES_EXIST") = .ok 1 ↔ fs path = true) := by
  obtain ⟨o', e, -, g⟩ := C55_some_partial fs newPropertyFileExist.opts [path] 0 rfl rfl
  refine ⟨o', by simpa [existValidateAll] using e, ?_⟩
  rw [g]; by_cases h : fs path = true <;> simp [h]

/-- C55 (required files): with FILE_MUST_EXIST on, a missing file is rejected, an existing one accepted and recorded. -/
theorem C55_must (fs : FS) (o : Map Int) (m : Int) (hm : m ≠ 0) (h : getOpt o (lit "FILE_MUST_EXIST") = .ok m) (path : Str) :
    (fs path = false → fileExistVT.valid fs path o = .throw .invalidArgument) ∧
    (fs path = true → ∃ o', fileExistVT.valid fs path o = .ok o' ∧ getOpt o' (lit "FILE_DOES_EXIST") = .ok 1) := by
  constructor
  · intro hp
    show fileExistValid fs path o = _
    unfold fileExistValid; rw [h]; simp [hm, hp]
  · intro hp
    refine ⟨o.set (lit "FILE_DOES_EXIST") 1, ?_, by simp [getOpt]⟩
    show fileExistValid fs path o = _
    unfold fileExistValid; rw [h]; simp [hm, hp]

/-- C55 is false: once an existing file has been seen, every later missing file is reported as existing. -/
theorem C55_refuted (fs : FS) (good bad : Str) (hg : fs good = true) (_hb : fs bad = false) :
    ∃ o', existValidateAll fs newPropertyFileExist.opts [good, bad] = .ok o' ∧
      getOpt o' (lit "FILE_DOES_EXIST") = .ok 1 := by
  obtain ⟨o', e, -, g⟩ := C55_some_partial fs newPropertyFileExist.opts [good, bad] 0 rfl rfl
  exact ⟨o', e, by rw [g, if_pos ⟨good, by simp, hg⟩]⟩

/-- C55 (a defect found): an object built by the constructor taking the flag has no FILE_DOES_EXIST option until a file
has been found, so its post check throws `invalid_argument` even for a file that need not exist. -/
theorem C55_ctor_refuted : fileExistPost (newPropertyFileExistOf 0).opts = .throw .invalidArgument := rfl

/-- C55 (the constructor taking the flag): such an object rejects a missing file exactly when it was told that files must exist, and records a
file that exists; once it has, its post check passes. -/
theorem C55_ctor (must : Int) (fs : FS) (path : Str) :
    (newPropertyFileExistOf must).vt = fileExistVT ∧
    ((newPropertyFileExistOf must).vt.valid fs path (newPropertyFileExistOf must).opts = .throw .invalidArgument ↔ must ≠ 0 ∧ fs path = false) ∧
    (fs path = true → ∃ o', (newPropertyFileExistOf must).vt.valid fs path (newPropertyFileExistOf must).opts = .ok o' ∧
      getOpt o' (lit "FILE_MUST_EXIST") = .ok must ∧ getOpt o' (lit "FILE_DOES_EXIST") = .ok 1 ∧ (newPropertyFileExistOf must).vt.post o' = .ok ()) := by
  refine ⟨rfl, ?_, fun h => ⟨[((lit "FILE_DOES_EXIST"), 1), ((lit "FILE_MUST_EXIST"), must)], ?_, rfl, rfl, ?_⟩⟩
  · show fileExistValid fs path [((lit "FILE_MUST_EXIST"), must)] = _ ↔ _
    unfold fileExistValid
    show ((Res.ok must >>= fun _ => _) = _) ↔ _
    simp only [Res.ok_bind]
    by_cases c : must = 0
    · subst c; cases fs path <;> simp
    · cases fs path <;> simp [c]
  · show fileExistValid fs path [((lit "FILE_MUST_EXIST"), must)] = _
    unfold fileExistValid
    show ((Res.ok must >>= fun _ => _) = _)
    simp only [Res.ok_bind, h]
    by_cases c : must = 0
    · subst c; rfl
    · rw [if_pos c]; rfl
  · show (Res.ok must >>= fun _ => Res.ok (1 : Int) >>= fun _ => _) = _
    simp [fileExistPost]

example : ∃ fs : FS, fs (lit "a.pun") = true ∧ fs (lit "b.pun") = false :=
  ⟨fun p => p == (lit "a.pun"), by decide, by decide⟩

/-! ### C56: sister files -/

/-- C56: after validating `dir/core.ext`, SISTER_FILE_PATH_NAME lists `dir/core` + `e` for the configured sister
extensions `e` in order and SISTER_FILE_EXISTS says for each whether it exists; the configuration is unchanged. -/
theorem C56_sister (fs : FS) (o : Map (List Str)) (exts : List Str)
    (hexts : getOpt o (lit "ALLOWED_SISTER_FILE_EXT") = .ok exts) (hdef : (lit "NOT_DEFINED") ∉ exts)
    {path dir core ext : Str} (hp : PathParts path dir core ext) (hf : Fits path) :
    ∃ o', sisterVT.valid fs path o = .ok o' ∧
      getOpt o' (lit "SISTER_FILE_PATH_NAME") = .ok (exts.map (fun e => dir ++ core ++ e)) ∧
      getOpt o' (lit "SISTER_FILE_NAME") = .ok (exts.map (fun e => core ++ e)) ∧
      getOpt o' (lit "SISTER_FILE_EXISTS") =
        .ok (exts.map (fun e => if fs (dir ++ core ++ e) then (lit "true") else (lit "false"))) ∧
      getOpt o' (lit "ALLOWED_SISTER_FILE_EXT") = .ok exts := by
  obtain ⟨h1, h2, h3, -, -⟩ := hp.file hf
  have hflt : exts.filter (fun e => e ≠ (lit "NOT_DEFINED")) = exts := by
    rw [List.filter_eq_self]; intro a ha; simp only [ne_eq, decide_not, Bool.not_eq_true', decide_eq_false_iff_not]
    rintro rfl; exact hdef ha
  have key : ∃ o', sisterValid fs path o = .ok o' ∧ o' = (((o.set (lit "SISTER_FILE_NAME") (exts.map (fun e => core ++ e))).set
      (lit "SISTER_FILE_PATH") ((exts.map (fun e => core ++ e)).map (fun _ => dir))).set
      (lit "SISTER_FILE_PATH_NAME") ((exts.map (fun e => core ++ e)).map (fun n => dir ++ n))).set (lit "SISTER_FILE_EXISTS")
      ((exts.map (fun e => core ++ e)).map (fun n => if fs (dir ++ n) then (lit "true") else (lit "false"))) := by
    refine ⟨_, ?_, rfl⟩
    unfold sisterValid
    rw [h2, h1]; simp only [Res.ok_bind]
    rw [h3]; simp only [Res.ok_bind]
    rw [hexts]; simp only [Res.ok_bind]
    rw [hflt]
  obtain ⟨o', e, ho'⟩ := key
  refine ⟨o', e, ?_, ?_, ?_, ?_⟩
  all_goals rw [ho']
  all_goals simp only [getOpt, Map.get_set, List.map_map, Function.comp_def, List.append_assoc]
  · simp
  · simp
  · simp
  · rw [if_neg (by decide), if_neg (by decide), if_neg (by decide), if_neg (by decide)]
    exact hexts

example : (sisterValid (fun p => p == (lit "d/x.pun")) (lit "d/x.log")
    [((lit "ALLOWED_SISTER_FILE_EXT"), [(lit ".orb"), (lit ".pun")])]) = .ok
    [((lit "ALLOWED_SISTER_FILE_EXT"), [(lit ".orb"), (lit ".pun")]),
     ((lit "SISTER_FILE_EXISTS"), [(lit "false"), (lit "true")]),
     ((lit "SISTER_FILE_NAME"), [(lit "x.orb"), (lit "x.pun")]),
     ((lit "SISTER_FILE_PATH"), [(lit "d/"), (lit "d/")]),
     ((lit "SISTER_FILE_PATH_NAME"), [(lit "d/x.orb"), (lit "d/x.pun")])] := by decide

/-! ### C57: setting options through an argument -/

/-- C57 (what holds): an option or property an argument does not have is rejected with `invalid_argument`. -/
theorem C57_unknown_partial {D : Type} (property option : Str) (l : List Str)
    (h : (property, option) ∉ [((lit "PROPERTY_STRING_CHOICE"), (lit "STRING_CHOICE_ENFORCED")),
      ((lit "PROPERTY_STRING_CHOICE"), (lit "STRING_CHOICES"))]) :
    (newArgumentString : ArgObj Str D).setSet property option l = .throw .invalidArgument := by
  simp only [List.mem_cons, List.not_mem_nil, or_false, Prod.mk.injEq, not_or, not_and] at h
  by_cases hp : property = (lit "PROPERTY_STRING_CHOICE")
  · have h1 := h.1 hp
    have h2 := h.2 hp
    have hg : newPropertyStringChoice.opts.get option = none := by
      simp only [newPropertyStringChoice]
      rw [Map.get_set_ne _ h2, Map.get_set_ne _ h1]; rfl
    have hn : property = newPropertyStringChoice.vt.name := hp
    simp [ArgObj.setSet, setAll, newArgumentString, setOpt, hg, ← hn]
  · have hn : ¬ property = newPropertyStringChoice.vt.name := hp
    simp [ArgObj.setSet, setAll, newArgumentString, hn]

theorem setAll_none {S T : Type} {ps : List (PropObj S T)} {p k : Str} {v : T}
    (hp : p ∉ ps.map (·.vt.name)) : setAll p k v ps = .ok (ps, false) := by
  have h1 : ps.mapM (fun q => if p = q.vt.name then do let o ← setOpt q.opts k v; Res.ok { q with opts := o } else .ok q) =
      .ok ps := by
    induction ps with
    | nil => rfl
    | cons q ps ih =>
      simp only [List.map_cons, List.mem_cons, not_or] at hp
      rw [List.mapM_cons, if_neg hp.1, ih hp.2]; rfl
  have h2 : ps.any (fun q => p == q.vt.name) = false := by
    rw [List.any_eq_false]
    intro q hq e
    exact hp (List.mem_map.2 ⟨q, hq, (beq_iff_eq.1 e).symm⟩)
  unfold setAll; rw [h1, h2]; rfl

/-- C57 (what holds): whatever the argument and its history, a property it does not list is rejected with
`invalid_argument` by every overload of `setArgPropertyOpt`. -/
theorem C57_unknown_property_partial {S D : Type} (a : ArgObj S D) (property option : Str) (h : property ∉ a.properties) :
    (∀ v, a.setInt property option v = .throw .invalidArgument) ∧
    (∀ v, a.setDouble property option v = .throw .invalidArgument) ∧
    (∀ v, a.setStr property option v = .throw .invalidArgument) ∧
    (∀ v, a.setSet property option v = .throw .invalidArgument) ∧
    (∀ v, a.setVec property option v = .throw .invalidArgument) := by
  have hn : property ∉ a.ints.map (·.vt.name) ++ a.doubles.map (·.vt.name) ++ a.sizes.map (·.vt.name) ++
    a.strs.map (·.vt.name) ++ a.sets.map (·.vt.name) ++ a.vecs.map (·.vt.name) := by
    unfold ArgObj.properties at h
    intro hm
    apply h
    rw [if_neg]
    · exact hm
    · intro h0
      rw [List.length_eq_zero_iff.1 h0] at hm
      cases hm
  simp only [List.mem_append, not_or] at hn
  obtain ⟨⟨⟨⟨⟨h1, h2⟩, _⟩, h4⟩, h5⟩, h6⟩ := hn
  refine ⟨fun v => ?_, fun v => ?_, fun v => ?_, fun v => ?_, fun v => ?_⟩
  · unfold ArgObj.setInt; rw [setAll_none h1]; rfl
  · unfold ArgObj.setDouble; rw [setAll_none h2]; rfl
  · unfold ArgObj.setStr; rw [setAll_none h4, Res.ok_bind]; dsimp only
    rw [setAll_none h6, Res.ok_bind]; dsimp only
    rw [setAll_none h5]; rfl
  · unfold ArgObj.setSet; rw [setAll_none h5]; rfl
  · unfold ArgObj.setVec; rw [setAll_none h6]; rfl

example : (lit "PROPERTY_DOUBLE") ∉ (newArgumentFile : ArgObj Str Int).properties := by decide

/-- C57 is false: through an argument STRING_CHOICE_ENFORCED can be set to any value, which the property's own setter
rejects; the argument then accepts every string (the check is silently off). -/
theorem C57_refuted {D : Type} (v : Str) (h1 : v ≠ (lit "true")) (h2 : v ≠ (lit "false")) (o : Map (List Str)) :
    (choiceSetStr o (lit "STRING_CHOICE_ENFORCED") v).2 = .throw .invalidArgument ∧
    ∃ a : ArgObj Str D, (newArgumentString : ArgObj Str D).setSet (lit "PROPERTY_STRING_CHOICE")
        (lit "STRING_CHOICE_ENFORCED") [v] = .ok a ∧ ∀ fs s, Fits s → a.valid fs s = .ok a := by
  constructor
  · unfold choiceSetStr; simp [h1, h2]
  · refine ⟨_, rfl, ?_⟩
    intro fs s hs
    have h := (C51_length fs newPropertyString.opts 0 (2 ^ 64 - 1) s (by decide) (by decide)).1
      ⟨Nat.zero_le _, by have := hs; unfold Fits at this; omega⟩
    have h' : newPropertyString.vt.valid fs s newPropertyString.opts = .ok newPropertyString.opts := h
    have hc : choiceValid fs s (Map.set newPropertyStringChoice.opts (lit "STRING_CHOICE_ENFORCED") [v]) =
        .ok (Map.set newPropertyStringChoice.opts (lit "STRING_CHOICE_ENFORCED") [v]) := by
      unfold choiceValid
      simp [getOpt, begin, h1]
    have hc' : newPropertyStringChoice.vt.valid fs s (Map.set newPropertyStringChoice.opts (lit "STRING_CHOICE_ENFORCED") [v]) = _ := hc
    simp [ArgObj.valid, newArgumentString, validAll, h', hc']

/-- C57 is false: the internally determined SISTER_FILE_EXISTS can be set through the argument, although the property's own
setter rejects it. -/
theorem C57_refuted_internal {D : Type} (o : Map (List Str)) (v : List Str) :
    sisterSetVec o (lit "SISTER_FILE_EXISTS") v = .throw .invalidArgument ∧
    ∃ (a : ArgObj Str D) (p : PropObj Str (List Str)), (newArgumentFile : ArgObj Str D).setVec (lit "PROPERTY_SISTER_FILE")
        (lit "SISTER_FILE_EXISTS") v = .ok a ∧ a.vecs = [p] ∧ getOpt p.opts (lit "SISTER_FILE_EXISTS") = .ok v := by
  refine ⟨rfl, _, _, rfl, rfl, ?_⟩
  simp [getOpt]

end Verif.Args
