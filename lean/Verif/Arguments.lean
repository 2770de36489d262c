import Verif.Properties
/-
Model of src/libcatnip/io/arguments/argumentobject.hpp and argument{int,double,string,switch,file}.{hpp,cpp}.
-/
namespace Verif.Args
open Strings

/-- argumentobject.hpp:17-28: the six property lists and the (virtual) name. `D` stands for `double`. -/
structure ArgObj (S D : Type) where
  name : Str
  ints : List (PropObj S Int)
  doubles : List (PropObj S D)
  sizes : List (PropObj S Nat)
  strs : List (PropObj S Str)
  sets : List (PropObj S (List Str))
  vecs : List (PropObj S (List Str))

section
variable {S D : Type}

/-- One loop of `checkValid_`: `propValid` of every property of the list. (argumentobject.hpp:31-33 and the five loops after it) -/
def validAll {T : Type} (fs : FS) (val : S) (ps : List (PropObj S T)) : Res (List (PropObj S T)) :=
  ps.mapM (fun p => do
    let o ← p.vt.valid fs val p.opts
    .ok { p with opts := o })

/-- argumentobject.hpp:30-49 `checkValid_`, 400-403 `argValid`: the object afterwards. -/
def ArgObj.valid (fs : FS) (val : S) (a : ArgObj S D) : Res (ArgObj S D) := do
  let ints ← validAll fs val a.ints
  let doubles ← validAll fs val a.doubles
  let sizes ← validAll fs val a.sizes
  let strs ← validAll fs val a.strs
  let sets ← validAll fs val a.sets
  let vecs ← validAll fs val a.vecs
  .ok ⟨a.name, ints, doubles, sizes, strs, sets, vecs⟩

/-- argumentobject.hpp:88-111 `getProperties`. -/
def ArgObj.properties (a : ArgObj S D) : List Str :=
  let props := a.ints.map (·.vt.name) ++ a.doubles.map (·.vt.name) ++ a.sizes.map (·.vt.name) ++
    a.strs.map (·.vt.name) ++ a.sets.map (·.vt.name) ++ a.vecs.map (·.vt.name)
  if props.length = 0 then [(lit "NO_PROPERTIES")] else props

/-- argumentobject.hpp:248-255 and 265-272: elements, each followed by a blank, trimmed. -/
def joinTrim (vals : List Str) : Str := trimmed (vals.flatMap (fun v => v ++ (lit " ")))

/-- One loop of `getPropertyValues(property, option)`: the first property of that name having that option. (argumentobject.hpp:203-212 and the five loops after it) -/
def findValue {T : Type} (render : T → Str) (property option : Str) : List (PropObj S T) → Option (Res Str)
  | [] => none
  | p :: ps =>
    if property = p.vt.name ∧ option ∈ p.vt.optNames then
      some (do let v ← getOpt p.opts option; .ok (render v))
    else findValue render property option ps

/-- argumentobject.hpp:202-281 `getPropertyValues(property, option)`. -/
def ArgObj.propertyValue [Dbl D] (a : ArgObj S D) (property option : Str) : Res Str :=
  (findValue intToStr property option a.ints |>.or
  (findValue Dbl.toStr property option a.doubles) |>.or
  (findValue (fun n : Nat => intToStr n) property option a.sizes) |>.or
  (findValue id property option a.strs) |>.or
  (findValue joinTrim property option a.sets) |>.or
  (findValue joinTrim property option a.vecs)).getD (.throw .invalidArgument)

/-- The loop shared by the `setArgPropertyOpt` overloads: the base `setPropOption` of every property of that name (the
call goes through a `PropertyObject*` and the function is not virtual). Also returns whether there was one. (argumentobject.hpp:287-294, 306-315, 329-337, 351-369, 383-390) -/
def setAll {T : Type} (property option : Str) (val : T) (ps : List (PropObj S T)) : Res (List (PropObj S T) × Bool) := do
  let ps' ← ps.mapM (fun p =>
    if property = p.vt.name then do
      let o ← setOpt p.opts option val
      .ok { p with opts := o }
    else .ok p)
  .ok (ps', ps.any (fun p => property == p.vt.name))

/-- argumentobject.hpp:381-398 `setArgPropertyOpt(.., int)`. -/
def ArgObj.setInt (a : ArgObj S D) (property option : Str) (val : Int) : Res (ArgObj S D) := do
  let (ps, set) ← setAll property option val a.ints
  if !set then .throw .invalidArgument else .ok { a with ints := ps }

/-- argumentobject.hpp:284-301 `setArgPropertyOpt(.., double)`. -/
def ArgObj.setDouble (a : ArgObj S D) (property option : Str) (val : D) : Res (ArgObj S D) := do
  let (ps, set) ← setAll property option val a.doubles
  if !set then .throw .invalidArgument else .ok { a with doubles := ps }

/-- argumentobject.hpp:303-324 `setArgPropertyOpt(.., set<string>)`. -/
def ArgObj.setSet (a : ArgObj S D) (property option : Str) (val : List Str) : Res (ArgObj S D) := do
  let (ps, set) ← setAll property option val a.sets
  if !set then .throw .invalidArgument else .ok { a with sets := ps }

/-- argumentobject.hpp:326-346 `setArgPropertyOpt(.., vector<string>)`. -/
def ArgObj.setVec (a : ArgObj S D) (property option : Str) (val : List Str) : Res (ArgObj S D) := do
  let (ps, set) ← setAll property option val a.vecs
  if !set then .throw .invalidArgument else .ok { a with vecs := ps }

/-- argumentobject.hpp:348-379 `setArgPropertyOpt(.., string)`. -/
def ArgObj.setStr (a : ArgObj S D) (property option val : Str) : Res (ArgObj S D) := do
  let (strs, set1) ← setAll property option val a.strs
  let (vecs, set2) ← setAll property option [val] a.vecs
  let (sets, set3) ← setAll property option [val] a.sets
  if !(set1 || set2 || set3) then .throw .invalidArgument
  else .ok { a with strs := strs, vecs := vecs, sets := sets }

/-- One loop of `postArgCheck`. (argumentobject.hpp:406-408 and the five loops after it) -/
def postAll {T : Type} (ps : List (PropObj S T)) : Res Unit := ps.foldlM (fun _ p => p.vt.post p.opts) ()

/-- argumentobject.hpp:405-424 `postArgCheck`. -/
def ArgObj.post (a : ArgObj S D) : Res Unit := do
  postAll a.ints
  postAll a.doubles
  postAll a.sizes
  postAll a.strs
  postAll a.sets
  postAll a.vecs

end

section
variable {D : Type}

/-- argumentint.cpp:9-14, argumentint.hpp:12. -/
def newArgumentInt : ArgObj Int D :=
  ⟨(lit "ARGUMENT_INT"), [newPropertyInt], [], [], [], [], []⟩

/-- argumentdouble.cpp:9-14, argumentdouble.hpp:12. -/
def newArgumentDouble [Dbl D] : ArgObj D D :=
  ⟨(lit "ARGUMENT_DOUBLE"), [], [newPropertyDouble], [], [], [], []⟩

/-- argumentstring.cpp:10-17, argumentstring.hpp:12. -/
def newArgumentString : ArgObj Str D :=
  ⟨(lit "ARGUMENT_STRING"), [], [], [newPropertyString], [], [newPropertyStringChoice], []⟩

/-- argumentswitch.cpp:9-14, argumentswitch.hpp:11. -/
def newArgumentSwitch : ArgObj Str D :=
  ⟨(lit "ARGUMENT_SWITCH"), [], [], [], [newPropertySwitch], [], []⟩

/-- argumentfile.cpp:11-21, argumentfile.hpp:12. -/
def newArgumentFile : ArgObj Str D :=
  ⟨(lit "ARGUMENT_FILE"), [newPropertyFileExist], [], [], [], [newPropertyFileExt], [newPropertySisterFile]⟩

end

/-- argumentswitch.cpp:16-25 `positive(string)`. -/
def positive (val : Str) : Res Bool :=
  if val = (lit "ON") ∨ val = (lit "TRUE") ∨ val = (lit "1") then .ok true
  else if val = (lit "OFF") ∨ val = (lit "FALSE") ∨ val = (lit "0") then .ok false
  else .throw .invalidArgument

/-- argumentswitch.hpp:17 `positive(int)`. -/
def positiveInt (val : Int) : Bool := val == 1

end Verif.Args
