import Verif.Arguments
/-
Model of src/libcatnip/io/argumentparser.cpp. Output (`cout`, `showUsage`) is not modelled; `exit` is the outcome `exit`.
After an exception the parser is not used any further (calc_J ends), so its state is not kept then.
-/
namespace Verif.Args
open Strings

/-- argumentparser.hpp:18-49, the data members. -/
structure Parser (D : Type) where
  strArg : Map (ArgObj Str D)
  switchArg : Map (ArgObj Str D)
  intArg : Map (ArgObj Int D)
  doubleArg : Map (ArgObj D D)
  fileArg : Map (ArgObj Str D)
  /-- full flag ↦ (short flag, description) -/
  flags : Map (Str × Str)
  defaultsSet : Map Bool
  ints : Map Int
  doubles : Map D
  strs : Map Str
  sizes : Map Nat

/-- A parser without flags and arguments. (argumentparser.hpp:18-39: all containers are empty) -/
def Parser.empty {D : Type} : Parser D := ⟨[], [], [], [], [], [], [], [], [], [], []⟩

/-- argumentparser.cpp:36-42, the locals describing one flag: full name, short name, description, each if given yet. -/
structure FlagLocals where
  full : Option Str
  short : Option Str
  desc : Option Str

/-- argumentparser.cpp:43-88, the loop over the items of one flag (the maximal sizes are used for output only).
`defaults_set_[item] = false` is kept in the first component. -/
def flagItem (st : Map Bool × FlagLocals) (item0 : Str) : Res (Map Bool × FlagLocals) := do
  let item := trimmed item0
  let doubledash ← firstN item 2
  let singledash ← firstN item 1
  let (dflt, l) := st
  if doubledash = (lit "--") then
    match l.full with
    | some _ => .throw .invalidArgument
    | none => .ok (dflt.set item false, { l with full := some item })
  else if singledash = (lit "-") then
    match l.short with
    | some _ => .throw .invalidArgument
    | none => .ok (dflt, { l with short := some item })
  else
    match l.desc with
    | some _ => .throw .invalidArgument
    | none => .ok (dflt, { l with desc := some item })

section
variable {D : Type}

/-- argumentparser.cpp:28-93, the loop body for one flag. -/
def addFlag (p : Parser D) (flag : List Str) : Res (Parser D) := do
  if flag.length > 3 then .throw .invalidArgument
  else do
    let (dflt, l) ← flag.foldlM flagItem (p.defaultsSet, ⟨none, none, none⟩)
    match l.full with
    | none => .throw .invalidArgument
    | some full =>
      .ok { p with
        defaultsSet := dflt
        flags := p.flags.set full
          (l.short.getD (lit "NO_SHORT_FLAG_SPECIFIED"), l.desc.getD (lit "NO_DESCRIPTION_GIVEN")) }

/-- argumentparser.cpp:16-94, the constructor; `flags` is a set in iteration order. -/
def newParser (flags : List (List Str)) : Res (Parser D) :=
  (vecSetInsert [(lit "--help"), (lit "-h"), (lit "Display help message")] flags).foldlM addFlag Parser.empty

/-- argumentparser.cpp:143-201 `addFlagArg` (186: a double argument is refused when the flag has a *file* argument). -/
def addFlagArg [Dbl D] (p : Parser D) (flag argname : Str) : Res (Parser D) :=
  if argname = (lit "ARGUMENT_INT") then
    match p.intArg.get flag with
    | none => .ok { p with intArg := p.intArg.set flag newArgumentInt }
    | some _ => .throw .invalidArgument
  else if argname = (lit "ARGUMENT_SWITCH") then
    match p.switchArg.get flag with
    | none => .ok { p with switchArg := p.switchArg.set flag newArgumentSwitch }
    | some _ => .throw .invalidArgument
  else if argname = (lit "ARGUMENT_STRING") then
    match p.strArg.get flag with
    | none => .ok { p with strArg := p.strArg.set flag newArgumentString }
    | some _ => .throw .invalidArgument
  else if argname = (lit "ARGUMENT_FILE") then
    match p.fileArg.get flag with
    | none => .ok { p with fileArg := p.fileArg.set flag newArgumentFile }
    | some _ => .throw .invalidArgument
  else if argname = (lit "ARGUMENT_DOUBLE") then
    match p.fileArg.get flag with
    | none => .ok { p with doubleArg := p.doubleArg.set flag newArgumentDouble }
    | some _ => .throw .invalidArgument
  else .throw .invalidArgument

/-- argumentparser.cpp:203-206 `setFlagDefaultValue(flag, int)`. -/
def setDefaultInt (p : Parser D) (flag : Str) (val : Int) : Parser D :=
  { p with ints := p.ints.set flag val, defaultsSet := p.defaultsSet.set flag true }
/-- argumentparser.cpp:208-211 `setFlagDefaultValue(flag, size_t)`. -/
def setDefaultSize (p : Parser D) (flag : Str) (val : Nat) : Parser D :=
  { p with sizes := p.sizes.set flag val, defaultsSet := p.defaultsSet.set flag true }
/-- argumentparser.cpp:213-216 `setFlagDefaultValue(flag, double)`. -/
def setDefaultDouble (p : Parser D) (flag : Str) (val : D) : Parser D :=
  { p with doubles := p.doubles.set flag val, defaultsSet := p.defaultsSet.set flag true }
/-- argumentparser.cpp:218-221 `setFlagDefaultValue(flag, string)`. -/
def setDefaultStr (p : Parser D) (flag val : Str) : Parser D :=
  { p with strs := p.strs.set flag val, defaultsSet := p.defaultsSet.set flag true }

/-- The pattern of the `setFlagArgOpt` overloads: apply a setter to the argument of the flag, creating it if there is
none. (argumentparser.cpp:223-401) -/
def updArg {S : Type} (m : Map (ArgObj S D)) (flag : Str) (new : ArgObj S D) (f : ArgObj S D → Res (ArgObj S D)) :
    Res (Map (ArgObj S D)) := do
  let a ← f ((m.get flag).getD new)
  .ok (m.set flag a)

/-- argumentparser.cpp:223-276 `setFlagArgOpt(.., int)`. -/
def setOptInt (p : Parser D) (flag argname property option : Str) (val : Int) : Res (Parser D) :=
  if argname = (lit "ARGUMENT_INT") then do
    let m ← updArg p.intArg flag newArgumentInt (·.setInt property option val)
    .ok { p with intArg := m }
  else if argname = (lit "ARGUMENT_STRING") then do
    let m ← updArg p.strArg flag newArgumentString (·.setInt property option val)
    .ok { p with strArg := m }
  else if argname = (lit "ARGUMENT_SWITCH") then do
    let m ← updArg p.switchArg flag newArgumentSwitch (fun a =>
      if val = 0 then a.setStr property option (lit "OFF")
      else if val = 1 then a.setStr property option (lit "ON")
      else .throw .invalidArgument)
    .ok { p with switchArg := m }
  else if argname = (lit "ARGUMENT_FILE") then do
    let m ← updArg p.fileArg flag newArgumentFile (·.setInt property option val)
    .ok { p with fileArg := m }
  else .throw .invalidArgument

/-- argumentparser.cpp:278-300 `setFlagArgOpt(.., double)`. -/
def setOptDouble [Dbl D] (p : Parser D) (flag argname property option : Str) (val : D) : Res (Parser D) :=
  if argname = (lit "ARGUMENT_DOUBLE") then do
    let m ← updArg p.doubleArg flag newArgumentDouble (·.setDouble property option val)
    .ok { p with doubleArg := m }
  else if argname = (lit "ARGUMENT_STRING") then do
    let m ← updArg p.strArg flag newArgumentString (·.setDouble property option val)
    .ok { p with strArg := m }
  else .throw .invalidArgument

/-- argumentparser.cpp:302-361 `setFlagArgOpt(.., string)`. -/
def setOptStr (p : Parser D) (flag argname property option val : Str) : Res (Parser D) :=
  if argname = (lit "ARGUMENT_FILE") then do
    let m ← updArg p.fileArg flag newArgumentFile (fun a =>
      if property = (lit "PROPERTY_FILE_EXT") then a.setSet property option [val]
      else if property = (lit "PROPERTY_SISTER_FILE_EXT") ∧ (p.fileArg.get flag).isNone = true then
        a.setVec property option [val]
      else a.setStr property option val)
    .ok { p with fileArg := m }
  else if argname = (lit "ARGUMENT_SWITCH") then do
    let m ← updArg p.switchArg flag newArgumentSwitch (fun a =>
      if val ≠ (lit "OFF") ∧ val ≠ (lit "ON") then .throw .invalidArgument
      else a.setStr property option val)
    .ok { p with switchArg := m }
  else if argname = (lit "ARGUMENT_STRING") then do
    let m ← updArg p.strArg flag newArgumentString (·.setSet property option [val])
    .ok { p with strArg := m }
  else .throw .invalidArgument

/-- argumentparser.cpp:363-385 `setFlagArgOpt(.., set<string>)`. -/
def setOptSet (p : Parser D) (flag argname property option : Str) (vals : List Str) : Res (Parser D) :=
  if argname = (lit "ARGUMENT_FILE") then do
    let m ← updArg p.fileArg flag newArgumentFile (·.setSet property option vals)
    .ok { p with fileArg := m }
  else if argname = (lit "ARGUMENT_STRING") then do
    let m ← updArg p.strArg flag newArgumentString (·.setSet property option vals)
    .ok { p with strArg := m }
  else .throw .invalidArgument

/-- argumentparser.cpp:387-401 `setFlagArgOpt(.., vector<string>)`. -/
def setOptVec (p : Parser D) (flag argname property option : Str) (vals : List Str) : Res (Parser D) :=
  if argname = (lit "ARGUMENT_FILE") then do
    let m ← updArg p.fileArg flag newArgumentFile (·.setVec property option vals)
    .ok { p with fileArg := m }
  else .throw .invalidArgument

/-- argumentparser.cpp:403-416 `nextParameterIsAFlag_`; `rest` are the tokens after the current one. -/
def nextIsFlag (p : Parser D) (rest : List Str) : Bool :=
  match rest with
  | [] => false
  | next :: _ => p.flags.any (fun f => f.1 == next || f.2.1 == next)

/-- argumentparser.cpp:419-428: the full flag an abbreviation stands for. -/
def resolve (p : Parser D) (token : Str) : Str :=
  match p.flags.get token with
  | some _ => token
  | none =>
    match p.flags.find? (fun f => f.2.1 == token) with
    | some f => f.1
    | none => token

/-- State of `parseArg_`: the parser, how many tokens beyond the flag have been used (`index` minus its start), and
`unrecognized`. (argumentparser.cpp:418-430) -/
structure ArgState (D : Type) where
  p : Parser D
  used : Nat
  unrec : Bool

/-- argumentparser.cpp:431-446: a string argument. `requiresParameter()` is true, so the value is always taken. -/
def strStage (fs : FS) (flag : Str) (rest : List Str) (s : ArgState D) : Res (ArgState D) :=
  match s.p.strArg.get flag with
  | none => .ok s
  | some a =>
    match rest.drop s.used with
    | [] => .throw .runtimeError
    | argument :: _ => do
      let a' ← a.valid fs argument
      .ok ⟨{ s.p with strArg := s.p.strArg.set flag a', strs := s.p.strs.set flag argument }, s.used + 1, false⟩

/-- argumentparser.cpp:447-474: a switch. The value, if there is one, is used without advancing `index`. -/
def switchStage (fs : FS) (flag : Str) (rest : List Str) (s : ArgState D) : Res (ArgState D) :=
  match s.p.switchArg.get flag with
  | none => .ok s
  | some a =>
    if !nextIsFlag s.p (rest.drop s.used) then
      match rest.drop s.used with
      | [] => .ok ⟨{ s.p with ints := s.p.ints.set flag 1 }, s.used, false⟩
      | argument :: _ => do
        let a' ← a.valid fs argument
        let on ← positive argument
        .ok ⟨{ s.p with
          switchArg := s.p.switchArg.set flag a'
          strs := s.p.strs.set flag argument
          ints := s.p.ints.set flag (if on then 1 else 0) }, s.used, false⟩
    else .ok ⟨{ s.p with ints := s.p.ints.set flag 1 }, s.used, false⟩

/-- argumentparser.cpp:475-488: an int argument. -/
def intStage (fs : FS) (flag : Str) (rest : List Str) (s : ArgState D) : Res (ArgState D) :=
  match s.p.intArg.get flag with
  | none => .ok s
  | some a =>
    match rest.drop s.used with
    | [] => .throw .runtimeError
    | argument :: _ => do
      let v ← stoi argument
      let a' ← a.valid fs v
      .ok ⟨{ s.p with intArg := s.p.intArg.set flag a', ints := s.p.ints.set flag v }, s.used + 1, false⟩

/-- argumentparser.cpp:489-502: a double argument. -/
def doubleStage [Dbl D] (fs : FS) (flag : Str) (rest : List Str) (s : ArgState D) : Res (ArgState D) :=
  match s.p.doubleArg.get flag with
  | none => .ok s
  | some a =>
    match rest.drop s.used with
    | [] => .throw .runtimeError
    | argument :: _ => do
      let v ← Dbl.stod argument
      let a' ← a.valid fs v
      .ok ⟨{ s.p with doubleArg := s.p.doubleArg.set flag a', doubles := s.p.doubles.set flag v }, s.used + 1, false⟩

/-- argumentparser.cpp:503-516: a file argument. -/
def fileStage (fs : FS) (flag : Str) (rest : List Str) (s : ArgState D) : Res (ArgState D) :=
  match s.p.fileArg.get flag with
  | none => .ok s
  | some a =>
    match rest.drop s.used with
    | [] => .throw .runtimeError
    | argument :: _ => do
      let a' ← a.valid fs argument
      .ok ⟨{ s.p with fileArg := s.p.fileArg.set flag a', strs := s.p.strs.set flag argument }, s.used + 1, false⟩

/-- argumentparser.cpp:418-521 `parseArg_`: the parser afterwards and how far `index` was advanced. -/
def parseArg [Dbl D] (fs : FS) (p : Parser D) (token : Str) (rest : List Str) : Res (Parser D × Nat) := do
  let flag := resolve p token
  let s ← strStage fs flag rest ⟨p, 0, true⟩
  let s ← switchStage fs flag rest s
  let s ← intStage fs flag rest s
  let s ← doubleStage fs flag rest s
  let s ← fileStage fs flag rest s
  if s.unrec then .throw .invalidArgument else .ok (s.p, s.used)

/-- argumentparser.cpp:523-557 `getFlagArgOptValue`. -/
def getFlagArgOptValue [Dbl D] (p : Parser D) (flag argname property option : Str) : Res Str :=
  match (p.strArg.get flag).filter (fun a => a.name = argname) with
  | some a => a.propertyValue property option
  | none =>
    match (p.switchArg.get flag).filter (fun a => a.name = argname) with
    | some a => a.propertyValue property option
    | none =>
      match (p.fileArg.get flag).filter (fun a => a.name = argname) with
      | some a => a.propertyValue property option
      | none =>
        match (p.intArg.get flag).filter (fun a => a.name = argname) with
        | some a => a.propertyValue property option
        | none => .throw .invalidArgument

/-- argumentparser.cpp:559-577 `getInt`. -/
def getInt (p : Parser D) (flag : Str) : Res Int :=
  match p.ints.get flag with
  | some v => .ok v
  | none =>
    match p.switchArg.get flag, p.strs.get flag with
    | some _, some s => do
      let on ← positive s
      .ok (if on then 1 else 0)
    | _, _ => .throw .invalidArgument

/-- argumentparser.cpp:579-587 `getDouble`. -/
def getDouble (p : Parser D) (flag : Str) : Res D :=
  match p.doubles.get flag with
  | some v => .ok v
  | none => .throw .invalidArgument

/-- argumentparser.cpp:589-606 `getStr`. -/
def getStr (p : Parser D) (flag : Str) : Res Str :=
  match p.strs.get flag with
  | some v => .ok v
  | none =>
    match p.switchArg.get flag, p.ints.get flag with
    | some _, some n => .ok (if positiveInt n then (lit "ON") else (lit "OFF"))
    | _, _ => .throw .invalidArgument

/-- argumentparser.cpp:608-616 `getSize_t`. -/
def getSize (p : Parser D) (flag : Str) : Res Nat :=
  match p.sizes.get flag with
  | some v => .ok v
  | none => .throw .invalidArgument

/-- argumentparser.cpp:618-635 `postParseCheck`. -/
def postParseCheck (p : Parser D) : Res Unit := do
  p.strArg.foldlM (fun _ a => a.2.post) ()
  p.switchArg.foldlM (fun _ a => a.2.post) ()
  p.intArg.foldlM (fun _ a => a.2.post) ()
  p.doubleArg.foldlM (fun _ a => a.2.post) ()
  p.fileArg.foldlM (fun _ a => a.2.post) ()

/-- argumentparser.cpp:655-684, the loop over the arguments: `skip` tokens are still to be skipped because `parseArg_`
advanced `index`; `allowed` is `allowed_args_before_exit`, `size` the number of arguments. -/
def parseLoop [Dbl D] (fs : FS) (size : Nat) : Nat → Nat → Parser D → List Str → Res (Parser D)
  | _, _, p, [] => .ok p
  | skip + 1, allowed, p, _ :: rest => parseLoop fs size skip allowed p rest
  | 0, allowed, p, token :: rest =>
    if token = (lit "--help") ∨ token = (lit "-h") then
      if allowed = size then .exit 0 else parseLoop fs size 0 (allowed + 1) p rest
    else if token = (lit "--version") ∨ token = (lit "-version") then .exit 0
    else if token = (lit "--citation") ∨ token = (lit "-cite") then
      if allowed = size then .exit 0 else parseLoop fs size 0 (allowed + 1) p rest
    else do
      let (p, used) ← parseArg fs p token rest
      parseLoop fs size used allowed p rest

/-- argumentparser.cpp:637-687 `parse`; `args` are `argv[1..]`. -/
def parse [Dbl D] (fs : FS) (p : Parser D) (args : List Str) : Res (Parser D) :=
  if args = [] then .throw .runtimeError
  else do
    let p ← parseLoop fs (args.length + 1) 0 2 p args
    postParseCheck p
    .ok p

end
end Verif.Args
