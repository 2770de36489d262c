import Verif.Spec.Chars
import Verif.ArgOptions
import Verif.ArgLeft
/-
Specification vocabulary: the options of the five kinds of argument.
-/
namespace Verif.Args
open Strings

/-- The type of the values of an option. -/
inductive OptType
  | int | double | size | str | set | vec
deriving DecidableEq

/-- The documented options of integer arguments: (property, option, type). -/
abbrev intTable : List (Str × Str × OptType) :=
  [((lit "PROPERTY_INT"), (lit "MIN"), .int), ((lit "PROPERTY_INT"), (lit "MAX"), .int)]

/-- The documented options of floating point arguments. -/
abbrev doubleTable : List (Str × Str × OptType) :=
  [((lit "PROPERTY_DOUBLE"), (lit "MIN"), .double), ((lit "PROPERTY_DOUBLE"), (lit "MAX"), .double)]

/-- The documented options of text arguments. -/
abbrev stringTable : List (Str × Str × OptType) :=
  [((lit "PROPERTY_STRING"), (lit "MIN_LENGTH"), .size), ((lit "PROPERTY_STRING"), (lit "MAX_LENGTH"), .size),
   ((lit "PROPERTY_STRING_CHOICE"), (lit "STRING_CHOICE_ENFORCED"), .set),
   ((lit "PROPERTY_STRING_CHOICE"), (lit "STRING_CHOICES"), .set)]

/-- The documented option of switches. -/
abbrev switchTable : List (Str × Str × OptType) := [((lit "PROPERTY_SWITCH"), (lit "DEFAULT"), .str)]

/-- The documented options of file arguments. -/
abbrev fileTable : List (Str × Str × OptType) :=
  [((lit "PROPERTY_FILE_EXIST"), (lit "FILE_MUST_EXIST"), .int), ((lit "PROPERTY_FILE_EXIST"), (lit "FILE_DOES_EXIST"), .int),
   ((lit "PROPERTY_FILE_EXT"), (lit "ALLOWED_FILE_EXT"), .set),
   ((lit "PROPERTY_SISTER_FILE"), (lit "ALLOWED_SISTER_FILE_EXT"), .vec),
   ((lit "PROPERTY_SISTER_FILE"), (lit "SISTER_FILE_NAME"), .vec),
   ((lit "PROPERTY_SISTER_FILE"), (lit "SISTER_FILE_PATH"), .vec),
   ((lit "PROPERTY_SISTER_FILE"), (lit "SISTER_FILE_PATH_NAME"), .vec),
   ((lit "PROPERTY_SISTER_FILE"), (lit "SISTER_FILE_EXISTS"), .vec)]

/-- The five kinds of argument as constructed, with the options of each. -/
inductive NewArg {D : Type} [Dbl D] : {S : Type} → ArgObj S D → List (Str × Str × OptType) → Prop
  | int : NewArg newArgumentInt intTable
  | double : NewArg newArgumentDouble doubleTable
  | string : NewArg newArgumentString stringTable
  | switch : NewArg newArgumentSwitch switchTable
  | file : NewArg newArgumentFile fileTable

/-- The arguments that can be obtained from `a₀` by calls of its interface, in any order and number, on any file systems; a value may
have been refused. (A setter that throws changes nothing: `C134_argument`.) -/
inductive Reached {S D : Type} (a₀ : ArgObj S D) : ArgObj S D → Prop
  | refl : Reached a₀ a₀
  | valid {a b} (fs : FS) (v : S) : Reached a₀ a → a.valid fs v = .ok b → Reached a₀ b
  | refused {a b e} (fs : FS) (v : S) : Reached a₀ a → a.validL fs v = (b, .throw e) → Reached a₀ b
  | setInt {a b} (p o : Str) (v : Int) : Reached a₀ a → a.setInt p o v = .ok b → Reached a₀ b
  | setDouble {a b} (p o : Str) (v : D) : Reached a₀ a → a.setDouble p o v = .ok b → Reached a₀ b
  | setStr {a b} (p o : Str) (v : Str) : Reached a₀ a → a.setStr p o v = .ok b → Reached a₀ b
  | setSet {a b} (p o : Str) (v : List Str) : Reached a₀ a → a.setSet p o v = .ok b → Reached a₀ b
  | setVec {a b} (p o : Str) (v : List Str) : Reached a₀ a → a.setVec p o v = .ok b → Reached a₀ b

/-- `t` is `s` without the white space at its ends. -/
def Bare (s t : Str) : Prop :=
  ∃ l r, s = l ++ t ++ r ∧ (∀ c ∈ l, White c = true) ∧ (∀ c ∈ r, White c = true) ∧
    (∀ c ∈ t.head?, White c = false) ∧ ∀ c ∈ t.getLast?, White c = false

/-- What is shown of a list of texts: the texts in order, with a blank after each, without the white space at the ends. -/
def Shows (vals : List Str) (t : Str) : Prop := Bare (vals.flatMap (fun v => v ++ [' '])) t

/-- Returned or threw. -/
def Calm {α : Type} (x : Res α) : Prop := (∃ a, x = .ok a) ∨ ∃ e, x = .throw e

/-- The parsers that can be obtained by constructing one from any flags and then making any calls, in any order and number; command
lines may have been refused. (A setter that throws changes nothing: `C134_setters`.) A copy of a parser shares its arguments, so that
the argument of a flag may also become what it is in another parser (the last five cases; see C135). -/
inductive ParserReached {D : Type} [Dbl D] : Parser D → Prop
  | new {p} (flags : List (List Str)) : newParser flags = .ok p → ParserReached p
  | addFlagArg {p q} (flag argname : Str) : ParserReached p → addFlagArg p flag argname = .ok q → ParserReached q
  | defaultInt {p} (flag : Str) (v : Int) : ParserReached p → ParserReached (setDefaultInt p flag v)
  | defaultSize {p} (flag : Str) (v : Nat) : ParserReached p → ParserReached (setDefaultSize p flag v)
  | defaultDouble {p} (flag : Str) (v : D) : ParserReached p → ParserReached (setDefaultDouble p flag v)
  | defaultStr {p} (flag v : Str) : ParserReached p → ParserReached (setDefaultStr p flag v)
  | optInt {p q} (flag arg pr op : Str) (v : Int) : ParserReached p → setOptInt p flag arg pr op v = .ok q → ParserReached q
  | optDouble {p q} (flag arg pr op : Str) (v : D) : ParserReached p → setOptDouble p flag arg pr op v = .ok q → ParserReached q
  | optStr {p q} (flag arg pr op v : Str) : ParserReached p → setOptStr p flag arg pr op v = .ok q → ParserReached q
  | optSet {p q} (flag arg pr op : Str) (v : List Str) : ParserReached p → setOptSet p flag arg pr op v = .ok q → ParserReached q
  | optVec {p q} (flag arg pr op : Str) (v : List Str) : ParserReached p → setOptVec p flag arg pr op v = .ok q → ParserReached q
  | parse {p q} (fs : FS) (args : List Str) : ParserReached p → parse fs p args = .ok q → ParserReached q
  | refused {p q e} (fs : FS) (args : List Str) : ParserReached p → parseL fs p args = (q, .throw e) → ParserReached q
  | shareStr {p q a b} (flag : Str) : ParserReached p → ParserReached q → p.strArg.get flag = some a → q.strArg.get flag = some b →
      ParserReached { p with strArg := p.strArg.set flag b }
  | shareSwitch {p q a b} (flag : Str) : ParserReached p → ParserReached q → p.switchArg.get flag = some a → q.switchArg.get flag = some b →
      ParserReached { p with switchArg := p.switchArg.set flag b }
  | shareInt {p q a b} (flag : Str) : ParserReached p → ParserReached q → p.intArg.get flag = some a → q.intArg.get flag = some b →
      ParserReached { p with intArg := p.intArg.set flag b }
  | shareDouble {p q a b} (flag : Str) : ParserReached p → ParserReached q → p.doubleArg.get flag = some a → q.doubleArg.get flag = some b →
      ParserReached { p with doubleArg := p.doubleArg.set flag b }
  | shareFile {p q a b} (flag : Str) : ParserReached p → ParserReached q → p.fileArg.get flag = some a → q.fileArg.get flag = some b →
      ParserReached { p with fileArg := p.fileArg.set flag b }

/-- What a successful call of `setFlagArgOpt` for an option of an argument does, as seen through `getFlagArgOptValue`: the option
has a value that shows as `text`; the argument's other options keep the values they had; and nothing else changes. -/
structure OptWritten {D : Type} [Dbl D] (p q : Parser D) (flag arg property option : Str) (text : Str → Prop) : Prop where
  read : ∃ t, text t ∧ getFlagArgOptValue q flag arg property option = .ok t
  same : ∀ pr op t, (pr, op) ≠ (property, option) → getFlagArgOptValue p flag arg pr op = .ok t →
    getFlagArgOptValue q flag arg pr op = .ok t
  others : ∀ flag' arg' pr op, (flag', arg') ≠ (flag, arg) →
    getFlagArgOptValue q flag' arg' pr op = getFlagArgOptValue p flag' arg' pr op

end Verif.Args
