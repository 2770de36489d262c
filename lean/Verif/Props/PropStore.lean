import Verif.ArgOptions
/-
C90 for property objects used directly, without an argument around them.
-/
namespace Verif.Args
open Strings

/-- The options of a property object after calls of `setPropOption`; a call that throws leaves it as it was. -/
def afterSets {T : Type} (o : Map T) : List (Str × T) → Map T
  | [] => o
  | (k, v) :: h => match setOpt o k v with
    | .ok o' => afterSets o' h
    | _ => afterSets o h

/-- The value last given to the option, if any. -/
def lastGiven {T : Type} (h : List (Str × T)) (k : Str) : Option T := ((h.filter fun x => x.1 = k).getLast?).map (·.2)

theorem afterSets_get {T : Type} (o : Map T) (h : List (Str × T)) (k : Str) :
    (afterSets o h).get k = (o.get k).map fun v => (lastGiven h k).getD v := by
  induction h generalizing o with
  | nil => simp [afterSets, lastGiven]
  | cons x h ih =>
    obtain ⟨k', v⟩ := x
    have step : lastGiven ((k', v) :: h) k = if k' = k then some ((lastGiven h k).getD v) else lastGiven h k := by
      unfold lastGiven
      by_cases c : k' = k
      · rw [if_pos c, List.filter_cons_of_pos (by simpa using c), List.getLast?_cons]
        cases (List.filter (fun x => decide (x.1 = k)) h).getLast? <;> rfl
      · rw [if_neg c, List.filter_cons_of_neg (by simpa using c)]
    unfold afterSets setOpt
    rw [step]
    cases ho : o.get k' with
    | none =>
      show (afterSets o h).get k = _
      rw [ih]
      by_cases c : k' = k
      · rw [← c, ho]; rfl
      · rw [if_neg c]
    | some w =>
      show (afterSets (o.set k' v) h).get k = _
      rw [ih]
      by_cases c : k' = k
      · rw [if_pos c, ← c, Map.get_set_self, ho]; rfl
      · rw [if_neg c, Map.get_set_ne _ (Ne.symm c)]

/-- C90 (a property by itself): after any calls of `setPropOption`, an option the property has holds the value last given to it, or the one it was built
with; reading or setting one it does not have is refused with `invalid_argument`. -/
theorem C90_object {T : Type} (o : Map T) (h : List (Str × T)) (k : Str) :
    (∀ v, o.get k = some v → getOpt (afterSets o h) k = .ok ((lastGiven h k).getD v) ∧ ∀ w, ∃ o', setOpt (afterSets o h) k w = .ok o' ∧
      getOpt o' k = .ok w ∧ ∀ k', k' ≠ k → getOpt o' k' = getOpt (afterSets o h) k') ∧
    (o.get k = none → getOpt (afterSets o h) k = .throw .invalidArgument ∧ ∀ w, setOpt (afterSets o h) k w = .throw .invalidArgument) := by
  have e := afterSets_get o h k
  refine ⟨fun v hv => ?_, fun hn => ?_⟩
  · rw [hv] at e
    refine ⟨by unfold getOpt; rw [e]; rfl, fun w => ⟨(afterSets o h).set k w, by unfold setOpt; rw [e]; rfl, by unfold getOpt; rw [Map.get_set_self], ?_⟩⟩
    intro k' hk
    unfold getOpt
    rw [Map.get_set_ne _ hk]
  · rw [hn] at e
    exact ⟨by unfold getOpt; rw [e]; rfl, fun w => by unfold setOpt; rw [e]; rfl⟩

/-- C90 (which options): a new property has exactly the options documented for its kind, with these values. -/
theorem C90_options (D : Type) [Dbl D] (k : Str) :
    getOpt newPropertyInt.opts k = (if k = "MIN".toList then .ok (-2147483648) else if k = "MAX".toList then .ok 2147483647 else .throw .invalidArgument) ∧
    getOpt (newPropertyDouble (D := D)).opts k =
      (if k = "MIN".toList then .ok Dbl.lowest else if k = "MAX".toList then .ok Dbl.max else .throw .invalidArgument) ∧
    getOpt newPropertyString.opts k =
      (if k = "MIN_LENGTH".toList then .ok 0 else if k = "MAX_LENGTH".toList then .ok (2 ^ 64 - 1) else .throw .invalidArgument) ∧
    getOpt newPropertyStringChoice.opts k = (if k = "STRING_CHOICE_ENFORCED".toList then .ok ["false".toList] else
      if k = "STRING_CHOICES".toList then .ok ["NOT_DEFINED".toList] else .throw .invalidArgument) ∧
    getOpt newPropertySwitch.opts k = (if k = "DEFAULT".toList then .ok "OFF".toList else .throw .invalidArgument) ∧
    getOpt newPropertyFileExt.opts k = (if k = "ALLOWED_FILE_EXT".toList then .ok ["*".toList] else .throw .invalidArgument) ∧
    getOpt newPropertyFileExist.opts k = (if k = "FILE_MUST_EXIST".toList then .ok 0 else if k = "FILE_DOES_EXIST".toList then .ok 0 else .throw .invalidArgument) := by
  have two : ∀ {T : Type} (a b : Str) (x y : T), b ≠ a → getOpt (Map.set (Map.set [] a x) b y) k = if k = a then .ok x else if k = b then .ok y else .throw .invalidArgument := by
    intro T a b x y hab
    unfold getOpt
    rw [Map.get_set, Map.get_set]
    by_cases c : k = a
    · rw [if_pos c, if_pos c, if_neg (c ▸ Ne.symm hab)]
    · rw [if_neg c, if_neg c]
      by_cases d : k = b
      · rw [if_pos d, if_pos d]
      · rw [if_neg d, if_neg d]; rfl
  have one : ∀ {T : Type} (a : Str) (x : T), getOpt (Map.set [] a x) k = if k = a then .ok x else .throw .invalidArgument := by
    intro T a x
    unfold getOpt
    rw [Map.get_set]
    by_cases c : k = a
    · rw [if_pos c, if_pos c]
    · rw [if_neg c, if_neg c]; rfl
  exact ⟨two (lit "MIN") (lit "MAX") (-2147483648) 2147483647 (by decide), two (lit "MIN") (lit "MAX") Dbl.lowest Dbl.max (by decide),
    two (lit "MIN_LENGTH") (lit "MAX_LENGTH") 0 (2 ^ 64 - 1) (by decide),
    two (lit "STRING_CHOICE_ENFORCED") (lit "STRING_CHOICES") [lit "false"] [lit "NOT_DEFINED"] (by decide), one _ _, one _ _,
    two (lit "FILE_MUST_EXIST") (lit "FILE_DOES_EXIST") 0 0 (by decide)⟩

/-- A text with two bounds set, one of them twice, and an option it has not. -/
example : getOpt (afterSets newPropertyString.opts [("MIN_LENGTH".toList, 2), ("MAX_LENGTH".toList, 9), ("MAX".toList, 1), ("MIN_LENGTH".toList, 3)])
    "MIN_LENGTH".toList = .ok 3 :=
  ((C90_object newPropertyString.opts [("MIN_LENGTH".toList, 2), ("MAX_LENGTH".toList, 9), ("MAX".toList, 1), ("MIN_LENGTH".toList, 3)] "MIN_LENGTH".toList).1 0
    (by decide +kernel)).1

example : getOpt (afterSets newPropertyString.opts [("MAX".toList, 1)]) "MAX".toList = .throw .invalidArgument :=
  ((C90_object newPropertyString.opts [("MAX".toList, 1)] "MAX".toList).2 (by decide +kernel)).1

end Verif.Args
