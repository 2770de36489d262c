import Verif.Maps
/-
Model of src/libcatnip/io/arguments/properties/*.

A `PropertyObject<S, T>` is its `options_` map together with the virtual functions of its dynamic class. Error messages
and the `new`/`delete` of option values are not modelled.
-/
namespace Verif.Args
open Strings

/-- The file system as `stat` sees it: does this path exist?. (propertyfileexist.cpp:24-27, propertysisterfile.cpp:31-34) -/
abbrev FS := Str → Bool

/-- What the code uses of `double`: the IEEE comparison `<`, the limits, `std::stod` and `std::to_string`. (propertydouble.cpp:19-33, argumentparser.cpp:497-499, argumentobject.hpp:155, 218) -/
class Dbl (D : Type) where
  lt : D → D → Bool
  lowest : D
  max : D
  stod : Str → Res D
  toStr : D → Str

/-- propertyobject.hpp:41-46, 57, 82: the virtual functions of a property class. `valid` is `propValid`: it may change the
options. -/
structure VTable (S T : Type) where
  name : Str
  optNames : List Str
  valid : FS → S → Map T → Res (Map T)
  post : Map T → Res Unit

/-- propertyobject.hpp:16-21. -/
structure PropObj (S T : Type) where
  vt : VTable S T
  opts : Map T

/-- propertyobject.hpp:71-80 `getPropOption`. -/
def getOpt {T : Type} (o : Map T) (option : Str) : Res T :=
  match o.get option with
  | none => .throw .invalidArgument
  | some v => .ok v

/-- propertyobject.hpp:64-69 `setPropOption` (not virtual). -/
def setOpt {T : Type} (o : Map T) (option : Str) (val : T) : Res (Map T) :=
  match o.get option with
  | none => .throw .invalidArgument
  | some _ => .ok (o.set option val)

/-- propertyobject.hpp:82 `postCheck`: nothing by default. -/
def noPost {T : Type} (_ : Map T) : Res Unit := .ok ()

/-! ### PropertyInt -/

/-- propertyint.cpp:19-33 `intValid`, propertyint.hpp:17-20 `propValid`. -/
def intValid (_ : FS) (val : Int) (o : Map Int) : Res (Map Int) := do
  let mn ← getOpt o (lit "MIN")
  if val < mn then .throw .invalidArgument
  else do
    let mx ← getOpt o (lit "MAX")
    if val > mx then .throw .invalidArgument else .ok o

/-- propertyint.hpp:12, propertyint.cpp:14-17. -/
def intVT : VTable Int Int where
  name := (lit "PROPERTY_INT")
  optNames := [(lit "MIN"), (lit "MAX")]
  valid := intValid
  post := noPost

/-- propertyint.cpp:9-12, the constructor. -/
def newPropertyInt : PropObj Int Int where
  vt := intVT
  opts := Map.set (Map.set [] (lit "MIN") (-2147483648)) (lit "MAX") 2147483647

/-! ### PropertyDouble -/
section
variable {D : Type} [Dbl D]

/-- propertydouble.cpp:19-33 `doubleValid`, propertydouble.hpp:17-20 `propValid`. -/
def doubleValid (_ : FS) (val : D) (o : Map D) : Res (Map D) := do
  let mn ← getOpt o (lit "MIN")
  if Dbl.lt val mn then .throw .invalidArgument
  else do
    let mx ← getOpt o (lit "MAX")
    if Dbl.lt mx val then .throw .invalidArgument else .ok o

/-- propertydouble.hpp:12, propertydouble.cpp:14-17. -/
def doubleVT : VTable D D where
  name := (lit "PROPERTY_DOUBLE")
  optNames := [(lit "MIN"), (lit "MAX")]
  valid := doubleValid
  post := noPost

/-- propertydouble.cpp:9-12, the constructor. -/
def newPropertyDouble : PropObj D D where
  vt := doubleVT
  opts := Map.set (Map.set [] (lit "MIN") Dbl.lowest) (lit "MAX") Dbl.max
end

/-! ### PropertyString -/

/-- propertystring.cpp:18-32 `stringValid`, propertystring.hpp:17-20 `propValid`. -/
def stringValid (_ : FS) (val : Str) (o : Map Nat) : Res (Map Nat) := do
  let mx ← getOpt o (lit "MAX_LENGTH")
  if val.length > mx then .throw .invalidArgument
  else do
    let mn ← getOpt o (lit "MIN_LENGTH")
    if val.length < mn then .throw .invalidArgument else .ok o

/-- propertystring.hpp:12, propertystring.cpp:13-16. -/
def stringVT : VTable Str Nat where
  name := (lit "PROPERTY_STRING")
  optNames := [(lit "MIN_LENGTH"), (lit "MAX_LENGTH")]
  valid := stringValid
  post := noPost

/-- propertystring.cpp:8-11, the constructor; `(size_t)-1`. -/
def newPropertyString : PropObj Str Nat where
  vt := stringVT
  opts := Map.set (Map.set [] (lit "MIN_LENGTH") 0) (lit "MAX_LENGTH") (2 ^ 64 - 1)

/-! ### PropertyStringChoice -/

/-- `*(s.begin())` of a `std::set`: undefined for the empty set. (propertystringchoice.cpp:66, 90) -/
def begin (s : List Str) : Res Str :=
  match s with
  | [] => .ub
  | a :: _ => .ok a

/-- propertystringchoice.cpp:87-98 `propValid`. -/
def choiceValid (_ : FS) (val : Str) (o : Map (List Str)) : Res (Map (List Str)) := do
  let enforced ← getOpt o (lit "STRING_CHOICE_ENFORCED")
  let e ← begin enforced
  if e = (lit "true") then do
    let choices ← getOpt o (lit "STRING_CHOICES")
    if val ∈ choices then .ok o else .throw .invalidArgument
  else .ok o

/-- propertystringchoice.hpp:13, propertystringchoice.cpp:18-23. -/
def choiceVT : VTable Str (List Str) where
  name := (lit "PROPERTY_STRING_CHOICE")
  optNames := [(lit "STRING_CHOICE_ENFORCED"), (lit "STRING_CHOICES")]
  valid := choiceValid
  post := noPost

/-- propertystringchoice.cpp:10-16, the constructor. -/
def newPropertyStringChoice : PropObj Str (List Str) where
  vt := choiceVT
  opts := Map.set (Map.set [] (lit "STRING_CHOICE_ENFORCED") [(lit "false")]) (lit "STRING_CHOICES")
    [(lit "NOT_DEFINED")]

/-- propertystringchoice.cpp:25-44 `setPropOption(string, string)`: the second case stores the value and then falls
through to the final `throw`. The first component is the object afterwards. -/
def choiceSetStr (o : Map (List Str)) (option var : Str) : Map (List Str) × Res Unit :=
  if option = (lit "STRING_CHOICE_ENFORCED") then
    if var = (lit "false") ∨ var = (lit "true") then (o.set option [var], .ok ())
    else (o, .throw .invalidArgument)
  else if option = (lit "STRING_CHOICES") then (o.set option [var], .throw .invalidArgument)
  else (o, .throw .invalidArgument)

/-- propertystringchoice.cpp:46-85 `setPropOption(string, set<string>)`. -/
def choiceSetSet (o : Map (List Str)) (option : Str) (vars : List Str) : Map (List Str) × Res Unit :=
  if option = (lit "STRING_CHOICES") then (o.set option vars, .ok ())
  else if option = (lit "STRING_CHOICE_ENFORCED") then
    if vars.length > 1 then (o, .throw .invalidArgument)
    else
      match vars with
      | [] => (o, .ub)
      | var :: _ =>
        if var = (lit "false") ∨ var = (lit "true") then (o.set option vars, .ok ())
        else (o, .throw .invalidArgument)
  else (o, .throw .invalidArgument)

/-! ### PropertySwitch -/

/-- propertyswitch.cpp:28-40 `switchValid(string)`, propertyswitch.hpp:23-26 `propValid(const string&)`. -/
def switchValid (_ : FS) (val : Str) (o : Map Str) : Res (Map Str) :=
  if val ≠ (lit "0") ∧ val ≠ (lit "1") ∧ val ≠ (lit "ON") ∧ val ≠ (lit "OFF") ∧ val ≠ (lit "TRUE") ∧
      val ≠ (lit "FALSE") then .throw .invalidArgument
  else .ok o

/-- propertyswitch.cpp:16-26 `switchValid(int)`, propertyswitch.hpp:19-22 `propValid(int)`. -/
def switchValidInt (val : Int) : Res Unit :=
  if val < 0 ∨ val > 1 then .throw .invalidArgument else .ok ()

/-- propertyswitch.hpp:11, propertyswitch.cpp:11-14. -/
def switchVT : VTable Str Str where
  name := (lit "PROPERTY_SWITCH")
  optNames := [(lit "DEFAULT")]
  valid := switchValid
  post := noPost

/-- propertyswitch.cpp:9, the constructor. -/
def newPropertySwitch : PropObj Str Str where
  vt := switchVT
  opts := Map.set [] (lit "DEFAULT") (lit "OFF")

/-! ### PropertyFileExt -/

/-- `s[0]` of a `std::string` (`'\0'` for the empty one). (propertyfileext.cpp:41, 54) -/
def char0 (s : Str) : Char := s.headD (Char.ofNat 0)

/-- propertyfileext.cpp:51-66 `checkExt`. -/
def extCheck (ext : Str) : Res Unit :=
  if ext = [] then .ok ()
  else if char0 ext = '*' then .ok ()
  else do
    let excess ← grabStrBeforeLastOccurance ext (lit ".")
    if excess ≠ [] then .throw .invalidArgument else .ok ()

/-- propertyfileext.cpp:37-49 `extSupported`. -/
def extSupported (exts : List Str) (ext : Str) : Res Unit :=
  if exts.any (fun e => char0 e == '*' || e == ext) then .ok () else .throw .invalidArgument

/-- propertyfileext.cpp:79-84 `propValid`. -/
def fileExtValid (_ : FS) (path : Str) (o : Map (List Str)) : Res (Map (List Str)) := do
  let fileName ← lastStringInPath path
  let ext ← grabStrAfterLastOccuranceInclusive fileName (lit ".")
  extCheck ext
  let exts ← getOpt o (lit "ALLOWED_FILE_EXT")
  extSupported exts ext
  .ok o

/-- propertyfileext.hpp:15, propertyfileext.cpp:32-35. -/
def fileExtVT : VTable Str (List Str) where
  name := (lit "PROPERTY_FILE_EXT")
  optNames := [(lit "ALLOWED_FILE_EXT")]
  valid := fileExtValid
  post := noPost

/-- propertyfileext.cpp:10-14, the default constructor. -/
def newPropertyFileExt : PropObj Str (List Str) where
  vt := fileExtVT
  opts := Map.set [] (lit "ALLOWED_FILE_EXT") [(lit "*")]

/-- propertyfileext.cpp:16-21, the constructor from one extension. -/
def newPropertyFileExtOne (ext : Str) : Res (PropObj Str (List Str)) := do
  extCheck ext
  .ok ⟨fileExtVT, Map.set [] (lit "ALLOWED_FILE_EXT") (strSetInsert ext [])⟩

/-- propertyfileext.cpp:68-71 `setPropOption(string, set<string>)`. -/
def fileExtSetSet (o : Map (List Str)) (option : Str) (vars : List Str) : Res (Map (List Str)) := setOpt o option vars

/-- propertyfileext.cpp:73-77 `setPropOption(string, string)`. -/
def fileExtSetStr (o : Map (List Str)) (option var : Str) : Res (Map (List Str)) := setOpt o option (strSetInsert var [])

/-- propertyfileext.cpp:23-30, the constructor from a set. -/
def newPropertyFileExtOf (exts : List Str) : Res (PropObj Str (List Str)) := do
  let s ← exts.foldlM (fun s ext => do extCheck ext; Res.ok (strSetInsert ext s)) []
  .ok ⟨fileExtVT, Map.set [] (lit "ALLOWED_FILE_EXT") s⟩

/-! ### PropertyFileExist -/

/-- propertyfileexist.cpp:29-42 `propValid`. -/
def fileExistValid (fs : FS) (path : Str) (o : Map Int) : Res (Map Int) := do
  let must ← getOpt o (lit "FILE_MUST_EXIST")
  if must ≠ 0 then
    if !fs path then .throw .invalidArgument else .ok (o.set (lit "FILE_DOES_EXIST") 1)
  else if fs path then .ok (o.set (lit "FILE_DOES_EXIST") 1)
  else .ok o

/-- propertyfileexist.cpp:44-50 `postCheck`. -/
def fileExistPost (o : Map Int) : Res Unit := do
  let must ← getOpt o (lit "FILE_MUST_EXIST")
  let exist ← getOpt o (lit "FILE_DOES_EXIST")
  if must ≠ 0 ∧ exist = 0 then .throw .runtimeError else .ok ()

/-- propertyfileexist.hpp:13, propertyfileexist.cpp:19-22. -/
def fileExistVT : VTable Str Int where
  name := (lit "PROPERTY_FILE_EXIST")
  optNames := [(lit "FILE_MUST_EXIST"), (lit "FILE_DOES_EXIST")]
  valid := fileExistValid
  post := fileExistPost

/-- propertyfileexist.cpp:10-13, the default constructor. -/
def newPropertyFileExist : PropObj Str Int where
  vt := fileExistVT
  opts := Map.set (Map.set [] (lit "FILE_MUST_EXIST") 0) (lit "FILE_DOES_EXIST") 0

/-- propertyfileexist.cpp:15-17, the constructor from a flag: it does not set FILE_DOES_EXIST. -/
def newPropertyFileExistOf (must : Int) : PropObj Str Int where
  vt := fileExistVT
  opts := Map.set [] (lit "FILE_MUST_EXIST") must

/-! ### PropertySisterFile -/

/-- propertysisterfile.cpp:48-57 `checkExt`. -/
def sisterCheckExt (ext : Str) : Res Unit := do
  let excess ← grabStrBeforeLastOccurance ext (lit ".")
  if excess ≠ [] then .throw .invalidArgument else .ok ()

/-- propertysisterfile.cpp:68-71 and 100-103: the options a caller may not set. -/
def sisterInternal : List Str :=
  [(lit "SISTER_FILE_EXISTS"), (lit "SISTER_FILE_NAME"), (lit "SISTER_FILE_PATH"), (lit "SISTER_FILE_PATH_NAME")]

/-- propertysisterfile.cpp:36-46 `extSupported`. -/
def sisterExtSupported (o : Map (List Str)) (ext : Str) : Res Unit := do
  sisterCheckExt ext
  let exts ← getOpt o (lit "ALLOWED_SISTER_FILE_EXT")
  if exts.any (fun e => e == ext) then .ok () else .throw .invalidArgument

/-- propertysisterfile.cpp:59-78 `setPropOption(string, string)`. -/
def sisterSetStr (o : Map (List Str)) (option var : Str) : Res (Map (List Str)) :=
  if option = (lit "ALLOWED_SISTER_FILE_EXT") then do
    sisterCheckExt var
    .ok (o.set option [var])
  else if option ∈ sisterInternal then .throw .invalidArgument
  else .throw .invalidArgument

/-- propertysisterfile.cpp:80-117 `setPropOption(string, vector<string>)`. -/
def sisterSetVec (o : Map (List Str)) (option : Str) (vars : List Str) : Res (Map (List Str)) :=
  if option = (lit "ALLOWED_SISTER_FILE_EXT") then do
    let _ ← vars.foldlM (fun _ v => sisterCheckExt v) ()
    .ok (o.set option vars)
  else .throw .invalidArgument

/-- propertysisterfile.cpp:119-153 `propValid`. -/
def sisterValid (fs : FS) (path : Str) (o : Map (List Str)) : Res (Map (List Str)) := do
  let fileName ← lastStringInPath path
  let dir ← getPath path
  let core ← grabStrBeforeLastOccurance fileName (lit ".")
  let exts ← getOpt o (lit "ALLOWED_SISTER_FILE_EXT")
  let defined := exts.filter (fun e => e ≠ (lit "NOT_DEFINED"))
  let names := defined.map (fun e => core ++ e)
  let o := o.set (lit "SISTER_FILE_NAME") names
  let o := o.set (lit "SISTER_FILE_PATH") (names.map (fun _ => dir))
  let o := o.set (lit "SISTER_FILE_PATH_NAME") (names.map (fun n => dir ++ n))
  let o := o.set (lit "SISTER_FILE_EXISTS")
    (names.map (fun n => if fs (dir ++ n) then (lit "true") else (lit "false")))
  .ok o

/-- propertysisterfile.hpp:13, propertysisterfile.cpp:21-29. -/
def sisterVT : VTable Str (List Str) where
  name := (lit "PROPERTY_SISTER_FILE")
  optNames := [(lit "ALLOWED_SISTER_FILE_EXT"), (lit "SISTER_FILE_NAME"), (lit "SISTER_FILE_PATH"),
    (lit "SISTER_FILE_PATH_NAME"), (lit "SISTER_FILE_EXISTS")]
  valid := sisterValid
  post := noPost

/-- propertysisterfile.cpp:10-19, the constructor. -/
def newPropertySisterFile : PropObj Str (List Str) where
  vt := sisterVT
  opts :=
    let nd := [(lit "NOT_DEFINED")]
    ((((Map.set [] (lit "ALLOWED_SISTER_FILE_EXT") nd).set (lit "SISTER_FILE_NAME") nd).set
      (lit "SISTER_FILE_PATH") nd).set (lit "SISTER_FILE_PATH_NAME") nd).set (lit "SISTER_FILE_EXISTS")
        [(lit "false")]

end Verif.Args
