import Verif.ArgParser
/-
What an ArgumentParser is like after `parse` threw. `ArgParser.lean` gives the parser after a call that returns; here every
step also gives the object it leaves behind when it throws. (`C134_result` proves that the outcomes are those of `parse`.)
-/
namespace Verif.Args
open Strings

/-- A call that may throw: the object afterwards, and the outcome. After `exit` or undefined behaviour the object is of no interest. -/
abbrev Left (σ : Type) := σ × Res Unit

/-- The next statement, which is run if the one before did not throw. -/
def Left.andThen {σ : Type} (x : Left σ) (f : σ → Left σ) : Left σ :=
  match x.2 with
  | .ok _ => f x.1
  | _ => x

/-- The outcome alone: the object, if the call returned. -/
def Left.outcome {σ : Type} (x : Left σ) : Res σ := x.2 >>= fun _ => .ok x.1

/-- A result without its value. -/
def void {α : Type} (x : Res α) : Res Unit := x >>= fun _ => .ok ()

section
variable {S D : Type}

/-- One loop of `checkValid_`; a property whose `propValid` throws keeps its options, those before it have been updated and those
after it have not been asked. (argumentobject.hpp:31-33 and the five loops after it; no `propValid` throws after it changed an
option: propertyfileexist.cpp:29-42, propertysisterfile.cpp:119-153; the others change none) -/
def validAllL {T : Type} (fs : FS) (val : S) : List (PropObj S T) → Left (List (PropObj S T))
  | [] => ([], .ok ())
  | p :: ps =>
    match p.vt.valid fs val p.opts with
    | .ok o => ({ p with opts := o } :: (validAllL fs val ps).1, (validAllL fs val ps).2)
    | r => (p :: ps, void r)

/-- argumentobject.hpp:30-49 `checkValid_`, 400-403 `argValid`: the six loops in turn. -/
def ArgObj.validL (fs : FS) (val : S) (a : ArgObj S D) : Left (ArgObj S D) :=
  Left.andThen ({ a with ints := (validAllL fs val a.ints).1 }, (validAllL fs val a.ints).2) fun a =>
  Left.andThen ({ a with doubles := (validAllL fs val a.doubles).1 }, (validAllL fs val a.doubles).2) fun a =>
  Left.andThen ({ a with sizes := (validAllL fs val a.sizes).1 }, (validAllL fs val a.sizes).2) fun a =>
  Left.andThen ({ a with strs := (validAllL fs val a.strs).1 }, (validAllL fs val a.strs).2) fun a =>
  Left.andThen ({ a with sets := (validAllL fs val a.sets).1 }, (validAllL fs val a.sets).2) fun a =>
  ({ a with vecs := (validAllL fs val a.vecs).1 }, (validAllL fs val a.vecs).2)
end

section
variable {D : Type}

/-- argumentparser.cpp:431-446: a string argument. -/
def strStageL (fs : FS) (flag : Str) (rest : List Str) (s : ArgState D) : Left (ArgState D) :=
  match s.p.strArg.get flag with
  | none => (s, .ok ())
  | some a =>
    match rest.drop s.used with
    | [] => (s, .throw .runtimeError)
    | argument :: _ =>
      Left.andThen ({ s with p := { s.p with strArg := s.p.strArg.set flag (a.validL fs argument).1 } }, (a.validL fs argument).2) fun s =>
      (⟨{ s.p with strs := s.p.strs.set flag argument }, s.used + 1, false⟩, .ok ())

/-- argumentparser.cpp:447-474: a switch. The text is stored before `positive` is asked. -/
def switchStageL (fs : FS) (flag : Str) (rest : List Str) (s : ArgState D) : Left (ArgState D) :=
  match s.p.switchArg.get flag with
  | none => (s, .ok ())
  | some a =>
    if !nextIsFlag s.p (rest.drop s.used) then
      match rest.drop s.used with
      | [] => (⟨{ s.p with ints := s.p.ints.set flag 1 }, s.used, false⟩, .ok ())
      | argument :: _ =>
        Left.andThen ({ s with p := { s.p with switchArg := s.p.switchArg.set flag (a.validL fs argument).1 } }, (a.validL fs argument).2) fun s =>
        Left.andThen (⟨{ s.p with strs := s.p.strs.set flag argument }, s.used, false⟩, void (positive argument)) fun s =>
        ({ s with p := { s.p with ints := s.p.ints.set flag (if positive argument = .ok true then 1 else 0) } }, .ok ())
    else (⟨{ s.p with ints := s.p.ints.set flag 1 }, s.used, false⟩, .ok ())

/-- argumentparser.cpp:475-488: an int argument. -/
def intStageL (fs : FS) (flag : Str) (rest : List Str) (s : ArgState D) : Left (ArgState D) :=
  match s.p.intArg.get flag with
  | none => (s, .ok ())
  | some a =>
    match rest.drop s.used with
    | [] => (s, .throw .runtimeError)
    | argument :: _ =>
      match stoi argument with
      | .ok v =>
        Left.andThen ({ s with p := { s.p with intArg := s.p.intArg.set flag (a.validL fs v).1 } }, (a.validL fs v).2) fun s =>
        (⟨{ s.p with ints := s.p.ints.set flag v }, s.used + 1, false⟩, .ok ())
      | r => (s, void r)

/-- argumentparser.cpp:489-502: a double argument. -/
def doubleStageL [Dbl D] (fs : FS) (flag : Str) (rest : List Str) (s : ArgState D) : Left (ArgState D) :=
  match s.p.doubleArg.get flag with
  | none => (s, .ok ())
  | some a =>
    match rest.drop s.used with
    | [] => (s, .throw .runtimeError)
    | argument :: _ =>
      match (Dbl.stod argument : Res D) with
      | .ok v =>
        Left.andThen ({ s with p := { s.p with doubleArg := s.p.doubleArg.set flag (a.validL fs v).1 } }, (a.validL fs v).2) fun s =>
        (⟨{ s.p with doubles := s.p.doubles.set flag v }, s.used + 1, false⟩, .ok ())
      | r => (s, void r)

/-- argumentparser.cpp:503-516: a file argument. -/
def fileStageL (fs : FS) (flag : Str) (rest : List Str) (s : ArgState D) : Left (ArgState D) :=
  match s.p.fileArg.get flag with
  | none => (s, .ok ())
  | some a =>
    match rest.drop s.used with
    | [] => (s, .throw .runtimeError)
    | argument :: _ =>
      Left.andThen ({ s with p := { s.p with fileArg := s.p.fileArg.set flag (a.validL fs argument).1 } }, (a.validL fs argument).2) fun s =>
      (⟨{ s.p with strs := s.p.strs.set flag argument }, s.used + 1, false⟩, .ok ())

/-- argumentparser.cpp:418-521 `parseArg_`. -/
def parseArgL [Dbl D] (fs : FS) (p : Parser D) (token : Str) (rest : List Str) : Left (ArgState D) :=
  Left.andThen (strStageL fs (resolve p token) rest ⟨p, 0, true⟩) fun s =>
  Left.andThen (switchStageL fs (resolve p token) rest s) fun s =>
  Left.andThen (intStageL fs (resolve p token) rest s) fun s =>
  Left.andThen (doubleStageL fs (resolve p token) rest s) fun s =>
  Left.andThen (fileStageL fs (resolve p token) rest s) fun s =>
  if s.unrec then (s, .throw .invalidArgument) else (s, .ok ())

/-- argumentparser.cpp:655-684, the loop over the arguments (see `parseLoop`). -/
def parseLoopL [Dbl D] (fs : FS) (size : Nat) : Nat → Nat → Parser D → List Str → Left (Parser D)
  | _, _, p, [] => (p, .ok ())
  | skip + 1, allowed, p, _ :: rest => parseLoopL fs size skip allowed p rest
  | 0, allowed, p, token :: rest =>
    if token = (lit "--help") ∨ token = (lit "-h") then
      if allowed = size then (p, .exit 0) else parseLoopL fs size 0 (allowed + 1) p rest
    else if token = (lit "--version") ∨ token = (lit "-version") then (p, .exit 0)
    else if token = (lit "--citation") ∨ token = (lit "-cite") then
      if allowed = size then (p, .exit 0) else parseLoopL fs size 0 (allowed + 1) p rest
    else
      match (parseArgL fs p token rest).2 with
      | .ok _ => parseLoopL fs size (parseArgL fs p token rest).1.used allowed (parseArgL fs p token rest).1.p rest
      | r => ((parseArgL fs p token rest).1.p, r)

/-- argumentparser.cpp:637-687 `parse`: the parser afterwards, whether the call returns or throws; `args` are `argv[1..]`.
`postParseCheck` changes nothing. -/
def parseL [Dbl D] (fs : FS) (p : Parser D) (args : List Str) : Left (Parser D) :=
  if args = [] then (p, .throw .runtimeError)
  else Left.andThen (parseLoopL fs (args.length + 1) 0 2 p args) fun p => (p, postParseCheck p)

end

/-! ### Setters -/

section
variable {S D : Type}

/-- The loop of `setArgPropertyOpt` (see `setAll`): a property that throws keeps its options (propertyobject.hpp:64-69), those before it have been
set. (argumentobject.hpp:287-294, 306-315, 329-337, 351-369, 383-390) -/
def setAllL {T : Type} (property option : Str) (val : T) : List (PropObj S T) → Left (List (PropObj S T))
  | [] => ([], .ok ())
  | p :: ps =>
    if property = p.vt.name then
      match setOpt p.opts option val with
      | .ok o => ({ p with opts := o } :: (setAllL property option val ps).1, (setAllL property option val ps).2)
      | r => (p :: ps, void r)
    else (p :: (setAllL property option val ps).1, (setAllL property option val ps).2)

/-- Whether there is a property of that name (the variable `setval`, argumentobject.hpp:286-390). -/
def hasProp {T : Type} (property : Str) (ps : List (PropObj S T)) : Bool := ps.any (fun p => property == p.vt.name)

/-- argumentobject.hpp:381-398 `setArgPropertyOpt(.., int)`. -/
def ArgObj.setIntL (a : ArgObj S D) (property option : Str) (val : Int) : Left (ArgObj S D) :=
  Left.andThen ({ a with ints := (setAllL property option val a.ints).1 }, (setAllL property option val a.ints).2) fun b =>
  (b, if hasProp property a.ints then .ok () else .throw .invalidArgument)

/-- argumentobject.hpp:284-301 `setArgPropertyOpt(.., double)`. -/
def ArgObj.setDoubleL (a : ArgObj S D) (property option : Str) (val : D) : Left (ArgObj S D) :=
  Left.andThen ({ a with doubles := (setAllL property option val a.doubles).1 }, (setAllL property option val a.doubles).2) fun b =>
  (b, if hasProp property a.doubles then .ok () else .throw .invalidArgument)

/-- argumentobject.hpp:303-324 `setArgPropertyOpt(.., set<string>)`. -/
def ArgObj.setSetL (a : ArgObj S D) (property option : Str) (val : List Str) : Left (ArgObj S D) :=
  Left.andThen ({ a with sets := (setAllL property option val a.sets).1 }, (setAllL property option val a.sets).2) fun b =>
  (b, if hasProp property a.sets then .ok () else .throw .invalidArgument)

/-- argumentobject.hpp:326-346 `setArgPropertyOpt(.., vector<string>)`. -/
def ArgObj.setVecL (a : ArgObj S D) (property option : Str) (val : List Str) : Left (ArgObj S D) :=
  Left.andThen ({ a with vecs := (setAllL property option val a.vecs).1 }, (setAllL property option val a.vecs).2) fun b =>
  (b, if hasProp property a.vecs then .ok () else .throw .invalidArgument)

/-- argumentobject.hpp:348-379 `setArgPropertyOpt(.., string)`. -/
def ArgObj.setStrL (a : ArgObj S D) (property option val : Str) : Left (ArgObj S D) :=
  Left.andThen ({ a with strs := (setAllL property option val a.strs).1 }, (setAllL property option val a.strs).2) fun b =>
  Left.andThen ({ b with vecs := (setAllL property option [val] b.vecs).1 }, (setAllL property option [val] b.vecs).2) fun b =>
  Left.andThen ({ b with sets := (setAllL property option [val] b.sets).1 }, (setAllL property option [val] b.sets).2) fun b =>
  (b, if hasProp property a.strs || hasProp property a.vecs || hasProp property a.sets then .ok () else .throw .invalidArgument)

/-- The pattern of the `setFlagArgOpt` overloads (see `updArg`): an argument that is there is changed in place; a new one is entered into the map
after it was set. (argumentparser.cpp:223-401) -/
def updArgL (m : Map (ArgObj S D)) (flag : Str) (new : ArgObj S D) (f : ArgObj S D → Left (ArgObj S D)) : Left (Map (ArgObj S D)) :=
  match m.get flag with
  | some a => (m.set flag (f a).1, (f a).2)
  | none =>
    match (f new).2 with
    | .ok _ => (m.set flag (f new).1, .ok ())
    | r => (m, r)
end

section
variable {D : Type}

/-- argumentparser.cpp:143-201 `addFlagArg`: it throws before it changes anything. -/
def addFlagArgL [Dbl D] (p : Parser D) (flag argname : Str) : Left (Parser D) :=
  match addFlagArg p flag argname with
  | .ok q => (q, .ok ())
  | r => (p, void r)

/-- argumentparser.cpp:223-276 `setFlagArgOpt(.., int)`. -/
def setOptIntL (p : Parser D) (flag argname property option : Str) (val : Int) : Left (Parser D) :=
  if argname = (lit "ARGUMENT_INT") then
    ({ p with intArg := (updArgL p.intArg flag newArgumentInt (·.setIntL property option val)).1 },
      (updArgL p.intArg flag newArgumentInt (·.setIntL property option val)).2)
  else if argname = (lit "ARGUMENT_STRING") then
    ({ p with strArg := (updArgL p.strArg flag newArgumentString (·.setIntL property option val)).1 },
      (updArgL p.strArg flag newArgumentString (·.setIntL property option val)).2)
  else if argname = (lit "ARGUMENT_SWITCH") then
    let f := fun a : ArgObj Str D =>
      if val = 0 then a.setStrL property option (lit "OFF")
      else if val = 1 then a.setStrL property option (lit "ON")
      else (a, .throw .invalidArgument)
    ({ p with switchArg := (updArgL p.switchArg flag newArgumentSwitch f).1 }, (updArgL p.switchArg flag newArgumentSwitch f).2)
  else if argname = (lit "ARGUMENT_FILE") then
    ({ p with fileArg := (updArgL p.fileArg flag newArgumentFile (·.setIntL property option val)).1 },
      (updArgL p.fileArg flag newArgumentFile (·.setIntL property option val)).2)
  else (p, .throw .invalidArgument)

/-- argumentparser.cpp:278-300 `setFlagArgOpt(.., double)`. -/
def setOptDoubleL [Dbl D] (p : Parser D) (flag argname property option : Str) (val : D) : Left (Parser D) :=
  if argname = (lit "ARGUMENT_DOUBLE") then
    ({ p with doubleArg := (updArgL p.doubleArg flag newArgumentDouble (·.setDoubleL property option val)).1 },
      (updArgL p.doubleArg flag newArgumentDouble (·.setDoubleL property option val)).2)
  else if argname = (lit "ARGUMENT_STRING") then
    ({ p with strArg := (updArgL p.strArg flag newArgumentString (·.setDoubleL property option val)).1 },
      (updArgL p.strArg flag newArgumentString (·.setDoubleL property option val)).2)
  else (p, .throw .invalidArgument)

/-- argumentparser.cpp:302-361 `setFlagArgOpt(.., string)`. -/
def setOptStrL (p : Parser D) (flag argname property option val : Str) : Left (Parser D) :=
  if argname = (lit "ARGUMENT_FILE") then
    let f := fun a : ArgObj Str D =>
      if property = (lit "PROPERTY_FILE_EXT") then a.setSetL property option [val]
      else if property = (lit "PROPERTY_SISTER_FILE_EXT") ∧ (p.fileArg.get flag).isNone = true then a.setVecL property option [val]
      else a.setStrL property option val
    ({ p with fileArg := (updArgL p.fileArg flag newArgumentFile f).1 }, (updArgL p.fileArg flag newArgumentFile f).2)
  else if argname = (lit "ARGUMENT_SWITCH") then
    let f := fun a : ArgObj Str D =>
      if val ≠ (lit "OFF") ∧ val ≠ (lit "ON") then (a, .throw .invalidArgument) else a.setStrL property option val
    ({ p with switchArg := (updArgL p.switchArg flag newArgumentSwitch f).1 }, (updArgL p.switchArg flag newArgumentSwitch f).2)
  else if argname = (lit "ARGUMENT_STRING") then
    ({ p with strArg := (updArgL p.strArg flag newArgumentString (·.setSetL property option [val])).1 },
      (updArgL p.strArg flag newArgumentString (·.setSetL property option [val])).2)
  else (p, .throw .invalidArgument)

/-- argumentparser.cpp:363-385 `setFlagArgOpt(.., set<string>)`. -/
def setOptSetL (p : Parser D) (flag argname property option : Str) (vals : List Str) : Left (Parser D) :=
  if argname = (lit "ARGUMENT_FILE") then
    ({ p with fileArg := (updArgL p.fileArg flag newArgumentFile (·.setSetL property option vals)).1 },
      (updArgL p.fileArg flag newArgumentFile (·.setSetL property option vals)).2)
  else if argname = (lit "ARGUMENT_STRING") then
    ({ p with strArg := (updArgL p.strArg flag newArgumentString (·.setSetL property option vals)).1 },
      (updArgL p.strArg flag newArgumentString (·.setSetL property option vals)).2)
  else (p, .throw .invalidArgument)

/-- argumentparser.cpp:387-401 `setFlagArgOpt(.., vector<string>)`. -/
def setOptVecL (p : Parser D) (flag argname property option : Str) (vals : List Str) : Left (Parser D) :=
  if argname = (lit "ARGUMENT_FILE") then
    ({ p with fileArg := (updArgL p.fileArg flag newArgumentFile (·.setVecL property option vals)).1 },
      (updArgL p.fileArg flag newArgumentFile (·.setVecL property option vals)).2)
  else (p, .throw .invalidArgument)

end
end Verif.Args
