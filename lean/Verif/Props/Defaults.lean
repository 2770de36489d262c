import Verif.Props.PropertiesB
import Verif.Props.ArgOptions
/-
Properties C52, C89, C97: the options of a new argument, and what they mean.
-/
namespace Verif.Args
open Strings

section
variable {D : Type} [Dbl D]

/-- C89 (defaults): the value of every option of a new argument. Integers may take any `int`, doubles anything between the limits, text any
length and any value, switches are off, files need not exist, may have any extension and have no sister file. -/
theorem C89_defaults :
    (newArgumentInt (D := D)).propertyValue (lit "PROPERTY_INT") (lit "MIN") = .ok (lit "-2147483648") ∧
    (newArgumentInt (D := D)).propertyValue (lit "PROPERTY_INT") (lit "MAX") = .ok (lit "2147483647") ∧
    (newArgumentDouble (D := D)).propertyValue (lit "PROPERTY_DOUBLE") (lit "MIN") = .ok (Dbl.toStr (Dbl.lowest : D)) ∧
    (newArgumentDouble (D := D)).propertyValue (lit "PROPERTY_DOUBLE") (lit "MAX") = .ok (Dbl.toStr (Dbl.max : D)) ∧
    (newArgumentString (D := D)).propertyValue (lit "PROPERTY_STRING") (lit "MIN_LENGTH") = .ok (lit "0") ∧
    (newArgumentString (D := D)).propertyValue (lit "PROPERTY_STRING") (lit "MAX_LENGTH") = .ok (lit "18446744073709551615") ∧
    (newArgumentString (D := D)).propertyValue (lit "PROPERTY_STRING_CHOICE") (lit "STRING_CHOICE_ENFORCED") = .ok (lit "false") ∧
    (newArgumentString (D := D)).propertyValue (lit "PROPERTY_STRING_CHOICE") (lit "STRING_CHOICES") = .ok (lit "NOT_DEFINED") ∧
    (newArgumentSwitch (D := D)).propertyValue (lit "PROPERTY_SWITCH") (lit "DEFAULT") = .ok (lit "OFF") ∧
    (newArgumentFile (D := D)).propertyValue (lit "PROPERTY_FILE_EXIST") (lit "FILE_MUST_EXIST") = .ok (lit "0") ∧
    (newArgumentFile (D := D)).propertyValue (lit "PROPERTY_FILE_EXIST") (lit "FILE_DOES_EXIST") = .ok (lit "0") ∧
    (newArgumentFile (D := D)).propertyValue (lit "PROPERTY_FILE_EXT") (lit "ALLOWED_FILE_EXT") = .ok (lit "*") ∧
    (newArgumentFile (D := D)).propertyValue (lit "PROPERTY_SISTER_FILE") (lit "ALLOWED_SISTER_FILE_EXT") = .ok (lit "NOT_DEFINED") ∧
    (newArgumentFile (D := D)).propertyValue (lit "PROPERTY_SISTER_FILE") (lit "SISTER_FILE_NAME") = .ok (lit "NOT_DEFINED") ∧
    (newArgumentFile (D := D)).propertyValue (lit "PROPERTY_SISTER_FILE") (lit "SISTER_FILE_PATH") = .ok (lit "NOT_DEFINED") ∧
    (newArgumentFile (D := D)).propertyValue (lit "PROPERTY_SISTER_FILE") (lit "SISTER_FILE_PATH_NAME") = .ok (lit "NOT_DEFINED") ∧
    (newArgumentFile (D := D)).propertyValue (lit "PROPERTY_SISTER_FILE") (lit "SISTER_FILE_EXISTS") = .ok (lit "false") := by
  refine ⟨?_, ?_, ?_, ?_, ?_, ?_, ?_, ?_, ?_, ?_, ?_, ?_, ?_, ?_, ?_, ?_, ?_⟩ <;> rfl

/-- C97 (default): `PropertyFileExt()` accepts every path, and validation changes nothing. -/
theorem C97_ext_default (fs : FS) {path dir core ext : Str} (hpath : PathParts path dir core ext) (hf : Fits path) :
    newPropertyFileExt.vt.valid fs path newPropertyFileExt.opts = .ok newPropertyFileExt.opts :=
  (C97_ext_validates fs ['*'] newPropertyFileExt rfl hpath hf).1 (.inr ⟨[], rfl⟩)

omit [Dbl D] in
/-- C52 (a defect found): the setter of the argument, unlike that of the property, stores any set under STRING_CHOICE_ENFORCED; with the empty one,
validating any text is undefined behaviour. -/
theorem C52_empty_undefined : ∃ a : ArgObj Str D,
    newArgumentString.setSet (lit "PROPERTY_STRING_CHOICE") (lit "STRING_CHOICE_ENFORCED") [] = .ok a ∧
    ∀ (fs : FS) (s : Str), Fits s → a.valid fs s = .ub := by
  refine ⟨_, rfl, fun fs s hs => ?_⟩
  have : ¬ s.length > 2 ^ 64 - 1 := by unfold Fits at hs; omega
  show ((do
    let o ← stringValid fs s newPropertyString.opts
    Res.ok { newPropertyString with opts := o }) >>= fun _ => _) >>= _ = _
  have e : stringValid fs s newPropertyString.opts = .ok newPropertyString.opts := by
    unfold stringValid
    rw [show getOpt newPropertyString.opts (lit "MAX_LENGTH") = .ok (2 ^ 64 - 1) from rfl, show getOpt newPropertyString.opts (lit "MIN_LENGTH") = .ok 0 from rfl]
    simp only [Res.ok_bind]
    rw [if_neg this, if_neg (Nat.not_lt_zero _)]
  rw [e]
  rfl

end

/-- The empty set is refused, as undefined behaviour too, by the property's own setter. -/
example (o : Map (List Str)) : (choiceSetSet o (lit "STRING_CHOICE_ENFORCED") []).2 = .ub := rfl
example : PathParts (lit "a.d/b.log") (lit "a.d/") (lit "b") (lit ".log") := by
  exact ⟨rfl, .inr ⟨(lit "a.d"), rfl⟩, by decide, .inr ⟨(lit "log"), rfl, by decide⟩⟩

end Verif.Args
