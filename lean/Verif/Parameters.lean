import Verif.Strings
/-
Model of src/libcatnip/parameters.cpp and parameters.hpp.
-/
namespace Verif.Params
open Strings

/-- parameters.hpp:9-31, the data members. `citation` is not initialised by the constructor. -/
structure Params where
  log1 : Str
  log2 : Str
  logP : Str
  pun1 : Str
  pun2 : Str
  punP : Str
  spinP : Str
  spin1 : Str
  spin2 : Str
  orbTypeP : Str
  orbType1 : Str
  orbType2 : Str
  orbNumP : Int
  orbNum1 : Int
  orbNum2 : Int
  citation : Option Bool
  counterPoise : Bool
deriving DecidableEq, Repr

/-- parameters.hpp:34-50, the constructor. -/
def init : Params := ⟨[], [], [], [], [], [], [], [], [], [], [], [], 0, 0, 0, none, false⟩

/-- The test shared by the six file setters, parameters.cpp:11-13: throws unless the last four characters are `ext`
(`lastN` itself throws on shorter strings). -/
def checkExt (s ext : Str) : Res Unit := do
  let e ← lastN s 4
  if e ≠ ext then .throw .invalidArgument else .ok ()

/-- parameters.cpp:10-15 -/
def setLog1 (p : Params) (s : Str) : Res Params := do checkExt s (lit ".log"); .ok { p with log1 := s }
/-- parameters.cpp:16-21 -/
def setLog2 (p : Params) (s : Str) : Res Params := do checkExt s (lit ".log"); .ok { p with log2 := s }
/-- parameters.cpp:22-27 -/
def setLogP (p : Params) (s : Str) : Res Params := do checkExt s (lit ".log"); .ok { p with logP := s }
/-- parameters.cpp:28-33 -/
def setPun1 (p : Params) (s : Str) : Res Params := do checkExt s (lit ".pun"); .ok { p with pun1 := s }
/-- parameters.cpp:34-39 -/
def setPun2 (p : Params) (s : Str) : Res Params := do checkExt s (lit ".pun"); .ok { p with pun2 := s }
/-- parameters.cpp:40-45 -/
def setPunP (p : Params) (s : Str) : Res Params := do checkExt s (lit ".pun"); .ok { p with punP := s }

/-- parameters.hpp:71: reading `citation` before it was set reads an indeterminate value. -/
def getCitation (p : Params) : Res Bool :=
  match p.citation with
  | some b => .ok b
  | none => .ub

/-- The public setters, parameters.hpp:73-92. -/
inductive Op
  | log1 (s : Str) | log2 (s : Str) | logP (s : Str) | pun1 (s : Str) | pun2 (s : Str) | punP (s : Str)
  | spinP (s : Str) | spin1 (s : Str) | spin2 (s : Str)
  | orbTypeP (s : Str) | orbType1 (s : Str) | orbType2 (s : Str)
  | orbNumP (n : Int) | orbNum1 (n : Int) | orbNum2 (n : Int)
  | counterPoise (b : Bool) | citation (b : Bool)

/-- One setter call, parameters.hpp:73-92: the object afterwards. -/
def call (p : Params) : Op → Res Params
  | .log1 s => setLog1 p s
  | .log2 s => setLog2 p s
  | .logP s => setLogP p s
  | .pun1 s => setPun1 p s
  | .pun2 s => setPun2 p s
  | .punP s => setPunP p s
  | .spinP s => .ok { p with spinP := s }
  | .spin1 s => .ok { p with spin1 := s }
  | .spin2 s => .ok { p with spin2 := s }
  | .orbTypeP s => .ok { p with orbTypeP := s }
  | .orbType1 s => .ok { p with orbType1 := s }
  | .orbType2 s => .ok { p with orbType2 := s }
  | .orbNumP n => .ok { p with orbNumP := n }
  | .orbNum1 n => .ok { p with orbNum1 := n }
  | .orbNum2 n => .ok { p with orbNum2 := n }
  | .counterPoise b => .ok { p with counterPoise := b }
  | .citation b => .ok { p with citation := some b }

/-- A setter call by a caller that catches the exception: the setters assign only after their last throwing statement
(parameters.cpp:10-45), so a throwing call leaves the object as it was. -/
def step (p : Params) (op : Op) : Params × Bool :=
  match call p op with
  | .ok p' => (p', true)
  | _ => (p, false)

end Verif.Params
