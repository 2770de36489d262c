import Verif.ArgLeft
/-
ArgumentParsers as they are in memory: the five maps hold pointers to argument objects, which the parser allocates and nothing ever deletes
(`ArgumentParser` declares no destructor, copy constructor or assignment, so the compiler's are used). `ArgLeft.lean` treats a parser as a value; here
copies of a parser hold the same pointers.
-/
namespace Verif.Args
open Strings

/-- The argument objects allocated so far, one list per class; the address of an object is its position. Objects are only ever added.
(`new` in argumentparser.cpp:147-190 and 228-395; there is no `delete`) -/
structure Store (D : Type) where
  str : List (ArgObj Str D)
  switch : List (ArgObj Str D)
  int : List (ArgObj Int D)
  double : List (ArgObj D D)
  file : List (ArgObj Str D)

/-- The data members of an ArgumentParser, argumentparser.hpp:18-49: maps of pointers, and the values. Copying the object copies this. -/
structure Handle (D : Type) where
  strArg : Map Nat
  switchArg : Map Nat
  intArg : Map Nat
  doubleArg : Map Nat
  fileArg : Map Nat
  flags : Map (Str × Str)
  defaultsSet : Map Bool
  ints : Map Int
  doubles : Map D
  strs : Map Str
  sizes : Map Nat

/-- A parser in memory: the objects, and the parser's own members. -/
structure InMem (D : Type) where
  st : Store D
  h : Handle D

section
variable {S D : Type}

/-- `map[flag]->f(..)`: the call through a pointer; nothing else is known about a pointer that points nowhere. (e.g. argumentparser.cpp:233, 438) -/
def callAt {A : Type} (arena : List A) (i : Nat) (f : A → Left A) : Left (List A) :=
  match arena[i]? with
  | none => (arena, .ub)
  | some a => (arena.set i (f a).1, (f a).2)

/-- The pattern of the `setFlagArgOpt` overloads: an argument that is there is changed through its pointer; otherwise one is allocated and set,
and the pointer is entered into the map if that did not throw. The components: the objects, and the map. (argumentparser.cpp:223-401) -/
def updArgH (arena : List (ArgObj S D)) (m : Map Nat) (flag : Str) (new : ArgObj S D) (f : ArgObj S D → Left (ArgObj S D)) :
    Left (List (ArgObj S D) × Map Nat) :=
  match m.get flag with
  | some i => (((callAt arena i f).1, m), (callAt arena i f).2)
  | none =>
    match (f new).2 with
    | .ok _ => ((arena ++ [(f new).1], m.set flag arena.length), .ok ())
    | r => ((arena ++ [(f new).1], m), r)
end

section
variable {D : Type}

/-- argumentparser.cpp:16-94, the constructor: it allocates nothing. -/
def newParserH (flags : List (List Str)) : Res (Handle D) := do
  let p : Parser D ← newParser flags
  .ok ⟨[], [], [], [], [], p.flags, p.defaultsSet, p.ints, p.doubles, p.strs, p.sizes⟩

/-- argumentparser.cpp:143-201 `addFlagArg`. -/
def addFlagArgH [Dbl D] (x : InMem D) (flag argname : Str) : Left (InMem D) :=
  if argname = (lit "ARGUMENT_INT") then
    match x.h.intArg.get flag with
    | none => (⟨{ x.st with int := x.st.int ++ [newArgumentInt] }, { x.h with intArg := x.h.intArg.set flag x.st.int.length }⟩, .ok ())
    | some _ => (x, .throw .invalidArgument)
  else if argname = (lit "ARGUMENT_SWITCH") then
    match x.h.switchArg.get flag with
    | none => (⟨{ x.st with switch := x.st.switch ++ [newArgumentSwitch] }, { x.h with switchArg := x.h.switchArg.set flag x.st.switch.length }⟩, .ok ())
    | some _ => (x, .throw .invalidArgument)
  else if argname = (lit "ARGUMENT_STRING") then
    match x.h.strArg.get flag with
    | none => (⟨{ x.st with str := x.st.str ++ [newArgumentString] }, { x.h with strArg := x.h.strArg.set flag x.st.str.length }⟩, .ok ())
    | some _ => (x, .throw .invalidArgument)
  else if argname = (lit "ARGUMENT_FILE") then
    match x.h.fileArg.get flag with
    | none => (⟨{ x.st with file := x.st.file ++ [newArgumentFile] }, { x.h with fileArg := x.h.fileArg.set flag x.st.file.length }⟩, .ok ())
    | some _ => (x, .throw .invalidArgument)
  else if argname = (lit "ARGUMENT_DOUBLE") then
    match x.h.fileArg.get flag with
    | none => (⟨{ x.st with double := x.st.double ++ [newArgumentDouble] }, { x.h with doubleArg := x.h.doubleArg.set flag x.st.double.length }⟩, .ok ())
    | some _ => (x, .throw .invalidArgument)
  else (x, .throw .invalidArgument)

/-- argumentparser.cpp:203-206 `setFlagDefaultValue`. -/
def setDefaultIntH (x : InMem D) (flag : Str) (val : Int) : InMem D :=
  { x with h := { x.h with ints := x.h.ints.set flag val, defaultsSet := x.h.defaultsSet.set flag true } }
/-- argumentparser.cpp:208-211 `setFlagDefaultValue`. -/
def setDefaultSizeH (x : InMem D) (flag : Str) (val : Nat) : InMem D :=
  { x with h := { x.h with sizes := x.h.sizes.set flag val, defaultsSet := x.h.defaultsSet.set flag true } }
/-- argumentparser.cpp:213-216 `setFlagDefaultValue`. -/
def setDefaultDoubleH (x : InMem D) (flag : Str) (val : D) : InMem D :=
  { x with h := { x.h with doubles := x.h.doubles.set flag val, defaultsSet := x.h.defaultsSet.set flag true } }
/-- argumentparser.cpp:218-221 `setFlagDefaultValue`. -/
def setDefaultStrH (x : InMem D) (flag : Str) (val : Str) : InMem D :=
  { x with h := { x.h with strs := x.h.strs.set flag val, defaultsSet := x.h.defaultsSet.set flag true } }

/-- argumentparser.cpp:223-276 `setFlagArgOpt(.., int)`. -/
def setOptIntH (x : InMem D) (flag argname property option : Str) (val : Int) : Left (InMem D) :=
  if argname = (lit "ARGUMENT_INT") then
    (⟨{ x.st with int := (updArgH x.st.int x.h.intArg flag newArgumentInt (·.setIntL property option val)).1.1 },
      { x.h with intArg := (updArgH x.st.int x.h.intArg flag newArgumentInt (·.setIntL property option val)).1.2 }⟩, (updArgH x.st.int x.h.intArg flag newArgumentInt (·.setIntL property option val)).2)
  else if argname = (lit "ARGUMENT_STRING") then
    (⟨{ x.st with str := (updArgH x.st.str x.h.strArg flag newArgumentString (·.setIntL property option val)).1.1 },
      { x.h with strArg := (updArgH x.st.str x.h.strArg flag newArgumentString (·.setIntL property option val)).1.2 }⟩, (updArgH x.st.str x.h.strArg flag newArgumentString (·.setIntL property option val)).2)
  else if argname = (lit "ARGUMENT_SWITCH") then
    let f := fun a : ArgObj Str D =>
      if val = 0 then a.setStrL property option (lit "OFF")
      else if val = 1 then a.setStrL property option (lit "ON")
      else (a, .throw .invalidArgument)
    (⟨{ x.st with switch := (updArgH x.st.switch x.h.switchArg flag newArgumentSwitch f).1.1 },
      { x.h with switchArg := (updArgH x.st.switch x.h.switchArg flag newArgumentSwitch f).1.2 }⟩, (updArgH x.st.switch x.h.switchArg flag newArgumentSwitch f).2)
  else if argname = (lit "ARGUMENT_FILE") then
    (⟨{ x.st with file := (updArgH x.st.file x.h.fileArg flag newArgumentFile (·.setIntL property option val)).1.1 },
      { x.h with fileArg := (updArgH x.st.file x.h.fileArg flag newArgumentFile (·.setIntL property option val)).1.2 }⟩, (updArgH x.st.file x.h.fileArg flag newArgumentFile (·.setIntL property option val)).2)
  else (x, .throw .invalidArgument)

/-- argumentparser.cpp:278-300 `setFlagArgOpt(.., double)`. -/
def setOptDoubleH [Dbl D] (x : InMem D) (flag argname property option : Str) (val : D) : Left (InMem D) :=
  if argname = (lit "ARGUMENT_DOUBLE") then
    (⟨{ x.st with double := (updArgH x.st.double x.h.doubleArg flag newArgumentDouble (·.setDoubleL property option val)).1.1 },
      { x.h with doubleArg := (updArgH x.st.double x.h.doubleArg flag newArgumentDouble (·.setDoubleL property option val)).1.2 }⟩, (updArgH x.st.double x.h.doubleArg flag newArgumentDouble (·.setDoubleL property option val)).2)
  else if argname = (lit "ARGUMENT_STRING") then
    (⟨{ x.st with str := (updArgH x.st.str x.h.strArg flag newArgumentString (·.setDoubleL property option val)).1.1 },
      { x.h with strArg := (updArgH x.st.str x.h.strArg flag newArgumentString (·.setDoubleL property option val)).1.2 }⟩, (updArgH x.st.str x.h.strArg flag newArgumentString (·.setDoubleL property option val)).2)
  else (x, .throw .invalidArgument)

/-- argumentparser.cpp:302-361 `setFlagArgOpt(.., string)`. -/
def setOptStrH (x : InMem D) (flag argname property option val : Str) : Left (InMem D) :=
  if argname = (lit "ARGUMENT_FILE") then
    let f := fun a : ArgObj Str D =>
      if property = (lit "PROPERTY_FILE_EXT") then a.setSetL property option [val]
      else if property = (lit "PROPERTY_SISTER_FILE_EXT") ∧ (x.h.fileArg.get flag).isNone = true then a.setVecL property option [val]
      else a.setStrL property option val
    (⟨{ x.st with file := (updArgH x.st.file x.h.fileArg flag newArgumentFile f).1.1 },
      { x.h with fileArg := (updArgH x.st.file x.h.fileArg flag newArgumentFile f).1.2 }⟩, (updArgH x.st.file x.h.fileArg flag newArgumentFile f).2)
  else if argname = (lit "ARGUMENT_SWITCH") then
    let f := fun a : ArgObj Str D =>
      if val ≠ (lit "OFF") ∧ val ≠ (lit "ON") then (a, .throw .invalidArgument) else a.setStrL property option val
    (⟨{ x.st with switch := (updArgH x.st.switch x.h.switchArg flag newArgumentSwitch f).1.1 },
      { x.h with switchArg := (updArgH x.st.switch x.h.switchArg flag newArgumentSwitch f).1.2 }⟩, (updArgH x.st.switch x.h.switchArg flag newArgumentSwitch f).2)
  else if argname = (lit "ARGUMENT_STRING") then
    (⟨{ x.st with str := (updArgH x.st.str x.h.strArg flag newArgumentString (·.setSetL property option [val])).1.1 },
      { x.h with strArg := (updArgH x.st.str x.h.strArg flag newArgumentString (·.setSetL property option [val])).1.2 }⟩, (updArgH x.st.str x.h.strArg flag newArgumentString (·.setSetL property option [val])).2)
  else (x, .throw .invalidArgument)

/-- argumentparser.cpp:363-385 `setFlagArgOpt(.., set<string>)`. -/
def setOptSetH (x : InMem D) (flag argname property option : Str) (vals : List Str) : Left (InMem D) :=
  if argname = (lit "ARGUMENT_FILE") then
    (⟨{ x.st with file := (updArgH x.st.file x.h.fileArg flag newArgumentFile (·.setSetL property option vals)).1.1 },
      { x.h with fileArg := (updArgH x.st.file x.h.fileArg flag newArgumentFile (·.setSetL property option vals)).1.2 }⟩, (updArgH x.st.file x.h.fileArg flag newArgumentFile (·.setSetL property option vals)).2)
  else if argname = (lit "ARGUMENT_STRING") then
    (⟨{ x.st with str := (updArgH x.st.str x.h.strArg flag newArgumentString (·.setSetL property option vals)).1.1 },
      { x.h with strArg := (updArgH x.st.str x.h.strArg flag newArgumentString (·.setSetL property option vals)).1.2 }⟩, (updArgH x.st.str x.h.strArg flag newArgumentString (·.setSetL property option vals)).2)
  else (x, .throw .invalidArgument)

/-- argumentparser.cpp:387-401 `setFlagArgOpt(.., vector<string>)`. -/
def setOptVecH (x : InMem D) (flag argname property option : Str) (vals : List Str) : Left (InMem D) :=
  if argname = (lit "ARGUMENT_FILE") then
    (⟨{ x.st with file := (updArgH x.st.file x.h.fileArg flag newArgumentFile (·.setVecL property option vals)).1.1 },
      { x.h with fileArg := (updArgH x.st.file x.h.fileArg flag newArgumentFile (·.setVecL property option vals)).1.2 }⟩, (updArgH x.st.file x.h.fileArg flag newArgumentFile (·.setVecL property option vals)).2)
  else (x, .throw .invalidArgument)

/-- argumentparser.cpp:403-416 `nextParameterIsAFlag_` (see `nextIsFlag`). -/
def nextIsFlagH (h : Handle D) (rest : List Str) : Bool :=
  match rest with
  | [] => false
  | next :: _ => h.flags.any (fun f => f.1 == next || f.2.1 == next)

/-- argumentparser.cpp:419-428 (see `resolve`). -/
def resolveH (h : Handle D) (token : Str) : Str :=
  match h.flags.get token with
  | some _ => token
  | none =>
    match h.flags.find? (fun f => f.2.1 == token) with
    | some f => f.1
    | none => token

/-- State of `parseArg_` (see `ArgState`; argumentparser.cpp:418-430). -/
structure ArgStateH (D : Type) where
  x : InMem D
  used : Nat
  unrec : Bool

/-- argumentparser.cpp:431-446: a string argument. -/
def strStageH (fs : FS) (flag : Str) (rest : List Str) (s : ArgStateH D) : Left (ArgStateH D) :=
  match s.x.h.strArg.get flag with
  | none => (s, .ok ())
  | some i =>
    match rest.drop s.used with
    | [] => (s, .throw .runtimeError)
    | argument :: _ =>
      Left.andThen (⟨⟨{ s.x.st with str := (callAt s.x.st.str i (·.validL fs argument)).1 }, s.x.h⟩, s.used, s.unrec⟩, (callAt s.x.st.str i (·.validL fs argument)).2) fun s =>
      (⟨⟨s.x.st, { s.x.h with strs := s.x.h.strs.set flag argument }⟩, s.used + 1, false⟩, .ok ())

/-- argumentparser.cpp:447-474: a switch. -/
def switchStageH (fs : FS) (flag : Str) (rest : List Str) (s : ArgStateH D) : Left (ArgStateH D) :=
  match s.x.h.switchArg.get flag with
  | none => (s, .ok ())
  | some i =>
    if !nextIsFlagH s.x.h (rest.drop s.used) then
      match rest.drop s.used with
      | [] => (⟨⟨s.x.st, { s.x.h with ints := s.x.h.ints.set flag 1 }⟩, s.used, false⟩, .ok ())
      | argument :: _ =>
        Left.andThen (⟨⟨{ s.x.st with switch := (callAt s.x.st.switch i (·.validL fs argument)).1 }, s.x.h⟩, s.used, s.unrec⟩, (callAt s.x.st.switch i (·.validL fs argument)).2) fun s =>
        Left.andThen (⟨⟨s.x.st, { s.x.h with strs := s.x.h.strs.set flag argument }⟩, s.used, false⟩, void (positive argument)) fun s =>
        ({ s with x := ⟨s.x.st, { s.x.h with ints := s.x.h.ints.set flag (if positive argument = .ok true then 1 else 0) }⟩ }, .ok ())
    else (⟨⟨s.x.st, { s.x.h with ints := s.x.h.ints.set flag 1 }⟩, s.used, false⟩, .ok ())

/-- argumentparser.cpp:475-488: an int argument. -/
def intStageH (fs : FS) (flag : Str) (rest : List Str) (s : ArgStateH D) : Left (ArgStateH D) :=
  match s.x.h.intArg.get flag with
  | none => (s, .ok ())
  | some i =>
    match rest.drop s.used with
    | [] => (s, .throw .runtimeError)
    | argument :: _ =>
      match stoi argument with
      | .ok v =>
        Left.andThen (⟨⟨{ s.x.st with int := (callAt s.x.st.int i (·.validL fs v)).1 }, s.x.h⟩, s.used, s.unrec⟩, (callAt s.x.st.int i (·.validL fs v)).2) fun s =>
        (⟨⟨s.x.st, { s.x.h with ints := s.x.h.ints.set flag v }⟩, s.used + 1, false⟩, .ok ())
      | r => (s, void r)

/-- argumentparser.cpp:489-502: a double argument. -/
def doubleStageH [Dbl D] (fs : FS) (flag : Str) (rest : List Str) (s : ArgStateH D) : Left (ArgStateH D) :=
  match s.x.h.doubleArg.get flag with
  | none => (s, .ok ())
  | some i =>
    match rest.drop s.used with
    | [] => (s, .throw .runtimeError)
    | argument :: _ =>
      match (Dbl.stod argument : Res D) with
      | .ok v =>
        Left.andThen (⟨⟨{ s.x.st with double := (callAt s.x.st.double i (·.validL fs v)).1 }, s.x.h⟩, s.used, s.unrec⟩, (callAt s.x.st.double i (·.validL fs v)).2) fun s =>
        (⟨⟨s.x.st, { s.x.h with doubles := s.x.h.doubles.set flag v }⟩, s.used + 1, false⟩, .ok ())
      | r => (s, void r)

/-- argumentparser.cpp:503-516: a file argument. -/
def fileStageH (fs : FS) (flag : Str) (rest : List Str) (s : ArgStateH D) : Left (ArgStateH D) :=
  match s.x.h.fileArg.get flag with
  | none => (s, .ok ())
  | some i =>
    match rest.drop s.used with
    | [] => (s, .throw .runtimeError)
    | argument :: _ =>
      Left.andThen (⟨⟨{ s.x.st with file := (callAt s.x.st.file i (·.validL fs argument)).1 }, s.x.h⟩, s.used, s.unrec⟩, (callAt s.x.st.file i (·.validL fs argument)).2) fun s =>
      (⟨⟨s.x.st, { s.x.h with strs := s.x.h.strs.set flag argument }⟩, s.used + 1, false⟩, .ok ())

/-- argumentparser.cpp:418-521 `parseArg_`. -/
def parseArgH [Dbl D] (fs : FS) (x : InMem D) (token : Str) (rest : List Str) : Left (ArgStateH D) :=
  Left.andThen (strStageH fs (resolveH x.h token) rest ⟨x, 0, true⟩) fun s =>
  Left.andThen (switchStageH fs (resolveH x.h token) rest s) fun s =>
  Left.andThen (intStageH fs (resolveH x.h token) rest s) fun s =>
  Left.andThen (doubleStageH fs (resolveH x.h token) rest s) fun s =>
  Left.andThen (fileStageH fs (resolveH x.h token) rest s) fun s =>
  if s.unrec then (s, .throw .invalidArgument) else (s, .ok ())

/-- One loop of `postParseCheck`. (argumentparser.cpp:618-635) -/
def postAllH {S : Type} (arena : List (ArgObj S D)) (m : Map Nat) : Res Unit :=
  m.foldlM (fun _ e => match arena[e.2]? with | none => .ub | some a => a.post) ()

/-- argumentparser.cpp:618-635 `postParseCheck`. -/
def postParseCheckH (x : InMem D) : Res Unit := do
  postAllH x.st.str x.h.strArg
  postAllH x.st.switch x.h.switchArg
  postAllH x.st.int x.h.intArg
  postAllH x.st.double x.h.doubleArg
  postAllH x.st.file x.h.fileArg

/-- argumentparser.cpp:655-684, the loop over the arguments (see `parseLoop`). -/
def parseLoopH [Dbl D] (fs : FS) (size : Nat) : Nat → Nat → InMem D → List Str → Left (InMem D)
  | _, _, x, [] => (x, .ok ())
  | skip + 1, allowed, x, _ :: rest => parseLoopH fs size skip allowed x rest
  | 0, allowed, x, token :: rest =>
    if token = (lit "--help") ∨ token = (lit "-h") then
      if allowed = size then (x, .exit 0) else parseLoopH fs size 0 (allowed + 1) x rest
    else if token = (lit "--version") ∨ token = (lit "-version") then (x, .exit 0)
    else if token = (lit "--citation") ∨ token = (lit "-cite") then
      if allowed = size then (x, .exit 0) else parseLoopH fs size 0 (allowed + 1) x rest
    else
      match (parseArgH fs x token rest).2 with
      | .ok _ => parseLoopH fs size (parseArgH fs x token rest).1.used allowed (parseArgH fs x token rest).1.x rest
      | r => ((parseArgH fs x token rest).1.x, r)

/-- argumentparser.cpp:637-687 `parse`. -/
def parseH [Dbl D] (fs : FS) (x : InMem D) (args : List Str) : Left (InMem D) :=
  if args = [] then (x, .throw .runtimeError)
  else Left.andThen (parseLoopH fs (args.length + 1) 0 2 x args) fun x => (x, postParseCheckH x)

/-! ### Reading -/

/-- `map.count(flag)`, `map[flag]->getArgumentName()` and `map[flag]->getPropertyValues(..)` of one map: `none` if there is no argument of that name.
(argumentparser.cpp:526-532 and the three blocks after it) -/
def askH [Dbl D] {S : Type} (arena : List (ArgObj S D)) (m : Map Nat) (flag argname property option : Str) : Option (Res Str) :=
  match m.get flag with
  | none => none
  | some i =>
    match arena[i]? with
    | none => some .ub
    | some a => if a.name = argname then some (a.propertyValue property option) else none

/-- argumentparser.cpp:523-557 `getFlagArgOptValue`. -/
def getFlagArgOptValueH [Dbl D] (x : InMem D) (flag argname property option : Str) : Res Str :=
  match askH x.st.str x.h.strArg flag argname property option with
  | some r => r
  | none =>
    match askH x.st.switch x.h.switchArg flag argname property option with
    | some r => r
    | none =>
      match askH x.st.file x.h.fileArg flag argname property option with
      | some r => r
      | none =>
        match askH x.st.int x.h.intArg flag argname property option with
        | some r => r
        | none => .throw .invalidArgument

/-- argumentparser.cpp:559-577 `getInt`. -/
def getIntH (h : Handle D) (flag : Str) : Res Int :=
  match h.ints.get flag with
  | some v => .ok v
  | none =>
    match h.switchArg.get flag, h.strs.get flag with
    | some _, some s => do
      let on ← positive s
      .ok (if on then 1 else 0)
    | _, _ => .throw .invalidArgument

/-- argumentparser.cpp:579-587 `getDouble`. -/
def getDoubleH (h : Handle D) (flag : Str) : Res D :=
  match h.doubles.get flag with
  | some v => .ok v
  | none => .throw .invalidArgument

/-- argumentparser.cpp:589-606 `getStr`. -/
def getStrH (h : Handle D) (flag : Str) : Res Str :=
  match h.strs.get flag with
  | some v => .ok v
  | none =>
    match h.switchArg.get flag, h.ints.get flag with
    | some _, some n => .ok (if positiveInt n then (lit "ON") else (lit "OFF"))
    | _, _ => .throw .invalidArgument

/-- argumentparser.cpp:608-616 `getSize_t`. -/
def getSizeH (h : Handle D) (flag : Str) : Res Nat :=
  match h.sizes.get flag with
  | some v => .ok v
  | none => .throw .invalidArgument

end

/-! ### Calls, and programs with any number of parsers -/

/-- The member functions that change a parser, with their arguments; `fs` is the file system at the time of the call. (argumentparser.hpp:58-98) -/
inductive Call (D : Type) where
  | addFlagArg (flag argname : Str)
  | defaultInt (flag : Str) (v : Int)
  | defaultSize (flag : Str) (v : Nat)
  | defaultDouble (flag : Str) (v : D)
  | defaultStr (flag v : Str)
  | optInt (flag argname property option : Str) (v : Int)
  | optDouble (flag argname property option : Str) (v : D)
  | optStr (flag argname property option v : Str)
  | optSet (flag argname property option : Str) (v : List Str)
  | optVec (flag argname property option : Str) (v : List Str)
  | parse (fs : FS) (args : List Str)

section
variable {D : Type} [Dbl D]

/-- The call, on a parser in memory. (argumentparser.hpp:58-98) -/
def Call.onMem : Call D → InMem D → Left (InMem D)
  | .addFlagArg flag argname, x => addFlagArgH x flag argname
  | .defaultInt flag v, x => (setDefaultIntH x flag v, .ok ())
  | .defaultSize flag v, x => (setDefaultSizeH x flag v, .ok ())
  | .defaultDouble flag v, x => (setDefaultDoubleH x flag v, .ok ())
  | .defaultStr flag v, x => (setDefaultStrH x flag v, .ok ())
  | .optInt flag arg pr op v, x => setOptIntH x flag arg pr op v
  | .optDouble flag arg pr op v, x => setOptDoubleH x flag arg pr op v
  | .optStr flag arg pr op v, x => setOptStrH x flag arg pr op v
  | .optSet flag arg pr op v, x => setOptSetH x flag arg pr op v
  | .optVec flag arg pr op v, x => setOptVecH x flag arg pr op v
  | .parse fs args, x => parseH fs x args

/-- The call, on a parser taken as a value (`ArgLeft.lean`). (argumentparser.hpp:58-98) -/
def Call.onValue : Call D → Parser D → Left (Parser D)
  | .addFlagArg flag argname, p => addFlagArgL p flag argname
  | .defaultInt flag v, p => (setDefaultInt p flag v, .ok ())
  | .defaultSize flag v, p => (setDefaultSize p flag v, .ok ())
  | .defaultDouble flag v, p => (setDefaultDouble p flag v, .ok ())
  | .defaultStr flag v, p => (setDefaultStr p flag v, .ok ())
  | .optInt flag arg pr op v, p => setOptIntL p flag arg pr op v
  | .optDouble flag arg pr op v, p => setOptDoubleL p flag arg pr op v
  | .optStr flag arg pr op v, p => setOptStrL p flag arg pr op v
  | .optSet flag arg pr op v, p => setOptSetL p flag arg pr op v
  | .optVec flag arg pr op v, p => setOptVecL p flag arg pr op v
  | .parse fs args, p => parseL fs p args
end

/-- A program's parsers: the argument objects, and the members of each parser. A parser that was destroyed is one that is not used any more: its
destructor leaves the objects alone. (argumentparser.hpp:17-103) -/
structure World (D : Type) where
  st : Store D
  ps : List (Handle D)

end Verif.Args
