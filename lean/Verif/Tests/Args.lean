import Verif.Tests.Matrix
import Verif.ArgOptions
import Verif.ArgParser
import Verif.IO
import Verif.Usage
import Verif.CalcJ
/-
The repository's own unit tests of the argument code, run on the model: src/tests/test_property*.cpp, test_argument*.cpp. They are no proofs of
any property. `double` is a rational number here; what `std::to_string` and `std::stod` do is not tested.
-/
namespace Verif.Tests
open Args

/-- `double` as far as the tests need it. -/
@[instance_reducible] def dblRat : Dbl Rat where
  lt a b := decide (a < b)
  lowest := -(2 ^ 1024 - 2 ^ 971)
  max := 2 ^ 1024 - 2 ^ 971
  stod _ := .throw .invalidArgument
  toStr _ := []

attribute [local instance] dblRat

/-- The call throws an exception. -/
def throws {β : Type} (r : Res β) : Bool := match r with | .throw _ => true | _ => false

def good {β : Type} (r : Res β) : Bool := passes r fun _ => true

/-- The files that exist when the tests run. -/
def testDir : FS := fun f => f = (lit "testfile.pun") ∨ f = (lit "testfile.log") ∨ f = (lit "test_propertyfileexist.cpp")

/-! ### test_propertyint.cpp, test_propertydouble.cpp, test_propertystring.cpp -/

example : intVT.name = (lit "PROPERTY_INT") ∧ intVT.optNames[0]? = some (lit "MIN") ∧ intVT.optNames[1]? = some (lit "MAX") := by decide +kernel
example : good (newPropertyInt.vt.valid testDir 0 newPropertyInt.opts) = true := by decide +kernel
example : passes (setOpt newPropertyInt.opts (lit "MIN") 0) (fun o => good (intValid testDir 0 o) && throws (intValid testDir (-1) o) &&
    throws (setOpt o (lit "MAXimum") 3)) = true := by decide +kernel

example : (doubleVT (D := Rat)).name = (lit "PROPERTY_DOUBLE") ∧ (doubleVT (D := Rat)).optNames[0]? = some (lit "MIN") ∧
    (doubleVT (D := Rat)).optNames[1]? = some (lit "MAX") := by decide +kernel
example : good (doubleValid testDir (0 : Rat) newPropertyDouble.opts) = true := by decide +kernel
example : passes (setOpt newPropertyDouble.opts (lit "MIN") (-12/10 : Rat)) (fun o => good (doubleValid testDir 0 o) && throws (doubleValid testDir (-23/10) o) &&
    throws (setOpt o (lit "MAXimum") (35/10))) = true := by decide +kernel

example : stringVT.name = (lit "PROPERTY_STRING") ∧ stringVT.optNames[0]? = some (lit "MIN_LENGTH") ∧ stringVT.optNames[1]? = some (lit "MAX_LENGTH") := by decide +kernel
example : good (stringValid testDir (lit "Hello") newPropertyString.opts) = true := by decide +kernel
example : passes (setOpt newPropertyString.opts (lit "MAX_LENGTH") 3) (fun o => good (stringValid testDir (lit "") o) && throws (stringValid testDir (lit "Hello") o) &&
    throws (setOpt o (lit "MAXimum") 4)) = true := by decide +kernel

/-! ### test_propertystringchoice.cpp -/

example : choiceVT.name = (lit "PROPERTY_STRING_CHOICE") ∧ (lit "STRING_CHOICE_ENFORCED") ∈ choiceVT.optNames ∧ (lit "STRING_CHOICES") ∈ choiceVT.optNames := by decide +kernel
example : getOpt newPropertyStringChoice.opts (lit "STRING_CHOICE_ENFORCED") = .ok [(lit "false")] ∧
    getOpt newPropertyStringChoice.opts (lit "STRING_CHOICES") = .ok [(lit "NOT_DEFINED")] := by decide +kernel
/-- test_propertystringchoice.cpp:56-96 -/
def choiceObj : Map (List Str) :=
  (choiceSetSet (choiceSetStr newPropertyStringChoice.opts (lit "STRING_CHOICE_ENFORCED") (lit "true")).1 (lit "STRING_CHOICES") [(lit "false"), (lit "true")]).1
example : (choiceSetStr newPropertyStringChoice.opts (lit "STRING_CHOICE_ENFORCED") (lit "true")).2 = .ok () ∧
    (choiceSetSet (choiceSetStr newPropertyStringChoice.opts (lit "STRING_CHOICE_ENFORCED") (lit "true")).1 (lit "STRING_CHOICES") [(lit "false"), (lit "true")]).2 = .ok () ∧
    good (choiceValid testDir (lit "true") choiceObj) = true ∧ good (choiceValid testDir (lit "false") choiceObj) = true ∧
    throws (choiceValid testDir (lit "blah") choiceObj) = true ∧ passes (getOpt choiceObj (lit "STRING_CHOICES")) (fun s => (lit "false") ∈ s ∧ (lit "true") ∈ s) = true ∧
    getOpt choiceObj (lit "STRING_CHOICE_ENFORCED") = .ok [(lit "true")] := by decide +kernel

/-! ### test_propertyswitch.cpp -/

example : switchVT.name = (lit "PROPERTY_SWITCH") ∧ switchVT.optNames[0]? = some (lit "DEFAULT") := by decide +kernel
example : switchValidInt 0 = .ok () ∧ switchValidInt 1 = .ok () ∧ throws (switchValidInt (-1)) = true ∧ throws (switchValidInt 2) = true ∧
    [(lit "ON"), (lit "OFF"), (lit "TRUE"), (lit "FALSE"), (lit "0"), (lit "1")].all (fun s => good (switchValid testDir s newPropertySwitch.opts)) = true := by decide +kernel
example : good (setOpt newPropertySwitch.opts (lit "DEFAULT") (lit "ON")) = true ∧ good (setOpt newPropertySwitch.opts (lit "DEFAULT") (lit "OFF")) = true := by decide +kernel

/-! ### test_propertyfileext.cpp, test_propertyfileexist.cpp, test_propertysisterfile.cpp -/

example : good (newPropertyFileExtOne (lit "*")) = true ∧ good (newPropertyFileExtOne (lit "")) = true ∧ good (newPropertyFileExtOne (lit ".jpg")) = true ∧
    throws (newPropertyFileExtOne (lit "ffda.fd")) = true ∧ good (newPropertyFileExtOf (strSet [(lit ".png"), (lit ".gjf")])) = true := by decide +kernel
example : fileExtVT.name = (lit "PROPERTY_FILE_EXT") ∧ fileExtVT.optNames[0]? = some (lit "ALLOWED_FILE_EXT") := by decide +kernel
example : passes (newPropertyFileExtOne (lit ".jpg")) (fun p => good (p.vt.valid testDir (lit "dir/file.jpg") p.opts) && throws (p.vt.valid testDir (lit "dir/file.jp") p.opts)) = true := by
  decide +kernel
example : passes (newPropertyFileExtOne (lit "*")) (fun p => good (p.vt.valid testDir (lit "dir/file.jpg") p.opts) && good (p.vt.valid testDir (lit "dir/file.jp") p.opts)) = true := by
  decide +kernel
example : passes (newPropertyFileExtOf (strSet [(lit ".png"), (lit ".gjf")])) (fun p => good (p.vt.valid testDir (lit "Dir2/Path/File.png") p.opts) &&
    good (p.vt.valid testDir (lit "Dir2/Path/File.gjf") p.opts) && throws (p.vt.valid testDir (lit "dir/file.com") p.opts)) = true := by decide +kernel

example : fileExistVT.name = (lit "PROPERTY_FILE_EXIST") ∧ fileExistVT.optNames[0]? = some (lit "FILE_MUST_EXIST") := by decide +kernel
example : good (fileExistValid testDir (lit "test_propertyfileexist.cpp") (newPropertyFileExistOf 0).opts) = true ∧
    throws (fileExistValid testDir (lit "fake") (newPropertyFileExistOf 1).opts) = true ∧
    good (fileExistValid testDir (lit "testfile.pun") (newPropertyFileExistOf 1).opts) = true := by decide +kernel
example : getOpt (newPropertyFileExistOf 1).opts (lit "FILE_MUST_EXIST") = .ok 1 ∧ getOpt (newPropertyFileExistOf 0).opts (lit "FILE_MUST_EXIST") = .ok 0 := by decide +kernel

example : sisterVT.name = (lit "PROPERTY_SISTER_FILE") ∧ (lit "ALLOWED_SISTER_FILE_EXT") ∈ sisterVT.optNames ∧ (lit "SISTER_FILE_NAME") ∈ sisterVT.optNames ∧
    (lit "SISTER_FILE_PATH") ∈ sisterVT.optNames ∧ (lit "SISTER_FILE_PATH_NAME") ∈ sisterVT.optNames ∧ (lit "SISTER_FILE_EXISTS") ∈ sisterVT.optNames := by decide +kernel
def sisterHolds (o : Map (List Str)) (exts names paths pathNames exist : Str) : Bool :=
  getOpt o (lit "ALLOWED_SISTER_FILE_EXT") = .ok [exts] && getOpt o (lit "SISTER_FILE_NAME") = .ok [names] && getOpt o (lit "SISTER_FILE_PATH") = .ok [paths] &&
  getOpt o (lit "SISTER_FILE_PATH_NAME") = .ok [pathNames] && getOpt o (lit "SISTER_FILE_EXISTS") = .ok [exist]
/-- test_propertysisterfile.cpp:62-83 -/
example : sisterHolds newPropertySisterFile.opts (lit "NOT_DEFINED") (lit "NOT_DEFINED") (lit "NOT_DEFINED") (lit "NOT_DEFINED") (lit "false") = true := by decide +kernel
/-- test_propertysisterfile.cpp:85-111 -/
example : passes (do let o ← sisterSetStr newPropertySisterFile.opts (lit "ALLOWED_SISTER_FILE_EXT") (lit ".pun"); sisterValid testDir (lit "testfile.log") o)
    (fun o => sisterHolds o (lit ".pun") (lit "testfile.pun") (lit "") (lit "testfile.pun") (lit "true")) = true := by decide +kernel

/-! ### test_argumentint.cpp, test_argumentdouble.cpp, test_argumentstring.cpp, test_argumentswitch.cpp, test_argumentfile.cpp -/

def argInt : ArgObj Int Rat := newArgumentInt
def argDouble : ArgObj Rat Rat := newArgumentDouble
def argString : ArgObj Str Rat := newArgumentString
def argSwitch : ArgObj Str Rat := newArgumentSwitch
def argFile : ArgObj Str Rat := newArgumentFile

example : argInt.name = (lit "ARGUMENT_INT") ∧ (lit "PROPERTY_INT") ∈ argInt.properties ∧ (lit "MIN") ∈ argInt.propertyOptions ∧ (lit "MAX") ∈ argInt.propertyOptions := by decide +kernel
example : passes argInt.propertyValues (fun m => m.get (lit "MIN") = some (lit "-2147483648") ∧ m.get (lit "MAX") = some (lit "2147483647")) = true := by decide +kernel
example : argDouble.name = (lit "ARGUMENT_DOUBLE") ∧ (lit "PROPERTY_DOUBLE") ∈ argDouble.properties ∧ (lit "MIN") ∈ argDouble.propertyOptions ∧
    (lit "MAX") ∈ argDouble.propertyOptions := by decide +kernel
example : passes argDouble.propertyValues (fun m => m.get (lit "MIN") = some (Dbl.toStr (Dbl.lowest : Rat)) ∧ m.get (lit "MAX") = some (Dbl.toStr (Dbl.max : Rat))) = true := by decide +kernel
example : argString.name = (lit "ARGUMENT_STRING") ∧ (lit "PROPERTY_STRING") ∈ argString.properties ∧ (lit "PROPERTY_STRING_CHOICE") ∈ argString.properties ∧
    [(lit "MIN_LENGTH"), (lit "MAX_LENGTH"), (lit "STRING_CHOICE_ENFORCED"), (lit "STRING_CHOICES")].all (fun o => o ∈ argString.propertyOptions) = true := by decide +kernel
example : passes argString.propertyValues (fun m => m.get (lit "MIN_LENGTH") = some (lit "0") ∧ m.get (lit "MAX_LENGTH") = some (lit "18446744073709551615") ∧
    m.get (lit "STRING_CHOICE_ENFORCED") = some (lit "false") ∧ m.get (lit "STRING_CHOICES") = some (lit "NOT_DEFINED")) = true := by decide +kernel
example : argSwitch.name = (lit "ARGUMENT_SWITCH") ∧ (lit "PROPERTY_SWITCH") ∈ argSwitch.properties ∧ (lit "DEFAULT") ∈ argSwitch.propertyOptions ∧
    passes argSwitch.propertyValues (fun m => m.get (lit "DEFAULT") = some (lit "OFF")) = true := by decide +kernel
example : argFile.name = (lit "ARGUMENT_FILE") ∧
    [(lit "PROPERTY_FILE_EXIST"), (lit "PROPERTY_FILE_EXT"), (lit "PROPERTY_SISTER_FILE")].all (fun p => p ∈ argFile.properties) = true ∧
    [(lit "ALLOWED_FILE_EXT"), (lit "ALLOWED_SISTER_FILE_EXT"), (lit "FILE_MUST_EXIST"), (lit "SISTER_FILE_NAME"), (lit "SISTER_FILE_PATH"), (lit "SISTER_FILE_PATH_NAME"),
      (lit "SISTER_FILE_EXISTS")].all (fun o => o ∈ argFile.propertyOptions) = true := by decide +kernel
example : passes argFile.propertyValues (fun m => m.get (lit "FILE_MUST_EXIST") = some (lit "0") ∧ (m.get (lit "ALLOWED_FILE_EXT")).any (fun s => s.head? = some '*')) = true := by
  decide +kernel
/-- test_argumentfile.cpp:152-158: the value the test prints. -/
example : passes (argFile.setSet (lit "PROPERTY_FILE_EXT") (lit "ALLOWED_FILE_EXT") (strSet [(lit ".pun"), (lit ".7"), (lit ".orb")]))
    (fun a => a.propertyValue (lit "PROPERTY_FILE_EXT") (lit "ALLOWED_FILE_EXT") = .ok (lit ".7 .orb .pun")) = true := by decide +kernel

/-! ### test_argumentparser.cpp -/

def flag1 : List Str := [(lit "-p_P"), (lit "--punfile-pair"), (lit "File containing dimer of two monomers. This file should have the .pun extension.")]
def flag2 : List Str := [(lit "-p_1"), (lit "--punfile-mon1"), (lit "File containing monomer 1")]
def flag3 : List Str := [(lit "-homo"), (lit "--homo-level"), (lit "HOMO molecular orbital")]
def testFlags : List (List Str) := vecSetInsert flag3 (vecSetInsert flag2 (vecSetInsert flag1 []))

/-- test_argumentparser.cpp:15-25 -/
example : good (newParser (D := Rat) (vecSetInsert flag1 [])) = true := by decide +kernel

/-- test_argumentparser.cpp:49-78 -/
example : good (do
    let p ← newParser (D := Rat) testFlags
    let p ← setOptStr p (lit "--punfile-pair") (lit "ARGUMENT_FILE") (lit "PROPERTY_FILE_EXT") (lit "ALLOWED_FILE_EXT") (lit ".pun")
    let p ← setOptStr p (lit "--punfile-pair") (lit "ARGUMENT_FILE") (lit "PROPERTY_FILE_EXT") (lit "ALLOWED_FILE_EXT") (lit ".7")
    setOptStr p (lit "--punfile-pair") (lit "ARGUMENT_FILE") (lit "PROPERTY_FILE_EXT") (lit "ALLOWED_FILE_EXT") (lit ".orb")) = true := by decide +kernel

def testExts : List Str := strSet [(lit ".pun"), (lit ".7"), (lit ".orb")]

/-- test_argumentparser.cpp:80-118, the preparation. (`true` and `false` are passed as `int`.) -/
def prepared : Res (Parser Rat) := do
  let p ← newParser testFlags
  let p ← setOptSet p (lit "--punfile-pair") (lit "ARGUMENT_FILE") (lit "PROPERTY_FILE_EXT") (lit "ALLOWED_FILE_EXT") testExts
  let p ← setOptSet p (lit "--punfile-mon1") (lit "ARGUMENT_FILE") (lit "PROPERTY_FILE_EXT") (lit "ALLOWED_FILE_EXT") testExts
  let p ← setOptSet p (lit "--punfile-mon2") (lit "ARGUMENT_FILE") (lit "PROPERTY_FILE_EXT") (lit "ALLOWED_FILE_EXT") testExts
  let p ← setOptInt p (lit "--punfile-pair") (lit "ARGUMENT_FILE") (lit "PROPERTY_FILE_EXIST") (lit "FILE_MUST_EXIST") 1
  let p ← setOptInt p (lit "--punfile-mon1") (lit "ARGUMENT_FILE") (lit "PROPERTY_FILE_EXIST") (lit "FILE_MUST_EXIST") 0
  setOptInt p (lit "--punfile-mon2") (lit "ARGUMENT_FILE") (lit "PROPERTY_FILE_EXIST") (lit "FILE_MUST_EXIST") 1

/-- test_argumentparser.cpp:119-151: the first command line is parsed, the second, given to the same parser, is not. -/
example : passes (do
    let p ← prepared
    parse testDir p [(lit "--punfile-pair"), (lit "testfile.pun"), (lit "--punfile-mon1"), (lit "file.orb"), (lit "--punfile-mon2"), (lit "testfile.pun")])
    (fun p => throws (parse testDir p [(lit "--punfile-pair"), (lit "testfile.pun"), (lit "--punfile-mon1"), (lit "file.orb"), (lit "--punfile-mon2"), (lit "fort.7")])) = true := by
  decide +kernel

/-- test_argumentparser.cpp:153-190 -/
example : passes (do
    let p ← newParser (D := Rat) testFlags
    let p ← setOptSet p (lit "--punfile-pair") (lit "ARGUMENT_FILE") (lit "PROPERTY_FILE_EXT") (lit "ALLOWED_FILE_EXT") testExts
    let p ← setOptSet p (lit "--punfile-mon1") (lit "ARGUMENT_FILE") (lit "PROPERTY_FILE_EXT") (lit "ALLOWED_FILE_EXT") testExts
    let p ← setOptStr p (lit "--punfile-mon1") (lit "ARGUMENT_FILE") (lit "PROPERTY_SISTER_FILE") (lit "ALLOWED_SISTER_FILE_EXT") (lit ".log")
    parse testDir p [(lit "--punfile-pair"), (lit "file.orb"), (lit "--punfile-mon1"), (lit "testfile.pun")])
    (fun p => getStr p (lit "--punfile-pair") = .ok (lit "file.orb") && getStr p (lit "--punfile-mon1") = .ok (lit "testfile.pun") &&
      getFlagArgOptValue p (lit "--punfile-mon1") (lit "ARGUMENT_FILE") (lit "PROPERTY_SISTER_FILE") (lit "SISTER_FILE_PATH_NAME") = .ok (lit "testfile.log")) = true := by
  decide +kernel

end Verif.Tests
