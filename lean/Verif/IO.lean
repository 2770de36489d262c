import Verif.ArgParser
import Verif.Parameters
/-
Model of src/libcatnip/io/io.cpp.
-/
namespace Verif.Args
open Strings

/-- io.cpp:17-168, the flags: full name, abbreviation, description. -/
def calcJFlags : List (List Str) := [
  -- io.cpp:18
  [(lit "--pun_P"), (lit "-p_P"),
    (lit "File contains the atomic orbital coefficients of the dimer of both monomer units. Must have the .pun/.orb/.7 file extension. This file is in the same format as the fort.7 file that comes out of a Gaussian run.")],
  -- io.cpp:29
  [(lit "--pun_1"), (lit "-p_1"),
    (lit "File contains the atomic orbital coefficients of monomer 1. Must have the .pun/.orb/.7 file extension. This file is in the same format as the fort.7 file that comes out of a Gaussian run.")],
  -- io.cpp:38
  [(lit "--pun_2"), (lit "-p_2"),
    (lit "File contains the atomic orbital coefficients of monomer 2. Must have the .pun/.orb/.7 file extension. This file is in the same format as the fort.7 file that comes out of a Gaussian run.")],
  -- io.cpp:47
  [(lit "--log_P"), (lit "-l_P"),
    (lit "File contains the log output from a guassian run of a dimer system. It is used to determine the orbital energies, the HOMO and LUMO levels and the number of basis functions per atom if provided. The file must have the .log extension to be read.")],
  -- io.cpp:58
  [(lit "--log_1"), (lit "-l_1"),
    (lit "File contains the log output from a guassian run of monomer 1. It is used to determine the orbital energies, the HOMO and LUMO levels and the number of basis functions per atom if provided. The file must have the .log extension to be read.")],
  -- io.cpp:69
  [(lit "--log_2"), (lit "-l_2"),
    (lit "File contains the log output from a guassian run of monomer 2. It is used to determine the orbital energies, the HOMO and LUMO levels and the number of basis functions per atom if provided. The file must have the .log extension to be read.")],
  -- io.cpp:80
  [(lit "--spin_P"), (lit "-s_P"),
    (lit "Specify which spin should be used for the dimer when running the transfer integral calculations. By default the same spin will be used for monomer 1, 2 and the dimer. The options are alpha or beta.")],
  -- io.cpp:89
  [(lit "--spin_1"), (lit "-s_1"),
    (lit "Specify which spin should be used for monomer 1 when running the transfer integral calculations. By default the same spin will be used for monomer 1, 2 and the dimer. The options are alpha or beta.")],
  -- io.cpp:98
  [(lit "--spin_2"), (lit "-s_2"),
    (lit "Specify which spin should be used for monomer 2 when running the transfer integral calculations. By default the same spin will be used for monomer 1, 2 and the dimer. The options are alpha or beta.")],
  -- io.cpp:107
  [(lit "--orbital_type_1"), (lit "-orb_ty_1"),
    (lit "Specify which orbital type will be used for monomer 1. By default the HOMO will be used. Your options are HOMO or LUMO.")],
  -- io.cpp:115
  [(lit "--orbital_type_2"), (lit "-orb_ty_2"),
    (lit "Specify which orbital type will be used for monomer 2. By default the HOMO will be used. Your options are HOMO or LUMO.")],
  -- io.cpp:123
  [(lit "--orbital_num_1"), (lit "-orb_num_1"),
    (lit "Specify which orbital will be used for monomer 1. If you specified an orbital type of HOMO you must use 0 to indicate HOMO or a negative number. E.g. a value of -1 would access the HOMO-1. If the LUMO is specified 0 - represents the LUMO and is the default. To access another orbital specify a positive number. E.g. 4 would access the LUMO+4.")],
  -- io.cpp:136
  [(lit "--orbital_num_2"), (lit "-orb_num_2"),
    (lit "Specify which orbital will be used for monomer 2. If you specified an orbital type of HOMO you must use 0 to indicate HOMO or a negative number. E.g. a value of -1 would access the HOMO-1. If the LUMO is specified 0 - represents the LUMO and is the default. To access another orbital specify a positive number. E.g. 4 would access the LUMO+4.")],
  -- io.cpp:149
  [(lit "--counter_poise"), (lit "-cp"),
    (lit "Specify that the counter poise correction is being taken into account this means that there should be the same number of basis functions for the dimer as there are for each of the monomers.")],
  -- io.cpp:158
  [(lit "--citation"), (lit "-cite"),
    (lit "Print software citation.")],
  -- io.cpp:164
  [(lit "--version"), (lit "-v"),
    (lit "Print the version")]]

section
variable {D : Type}

/-- io.cpp:191-216, the rules for one pun flag (`exts` is a `set<string>`). -/
def punRules (p : Parser D) (flag : Str) : Res (Parser D) := do
  let p ← setOptSet p flag (lit "ARGUMENT_FILE") (lit "PROPERTY_FILE_EXT") (lit "ALLOWED_FILE_EXT")
    (strSet [(lit ".orb"), (lit ".7"), (lit ".pun")])
  let p ← setOptStr p flag (lit "ARGUMENT_FILE") (lit "PROPERTY_SISTER_FILE") (lit "ALLOWED_SISTER_FILE_EXT")
    (lit ".log")
  setOptInt p flag (lit "ARGUMENT_FILE") (lit "PROPERTY_FILE_EXIST") (lit "FILE_MUST_EXIST") 0

/-- io.cpp:218-244, the rules for one log flag. -/
def logRules (p : Parser D) (flag : Str) : Res (Parser D) := do
  let p ← setOptSet p flag (lit "ARGUMENT_FILE") (lit "PROPERTY_FILE_EXT") (lit "ALLOWED_FILE_EXT")
    (strSet [(lit ".log")])
  let p ← setOptVec p flag (lit "ARGUMENT_FILE") (lit "PROPERTY_SISTER_FILE") (lit "ALLOWED_SISTER_FILE_EXT")
    [(lit ".orb"), (lit ".7"), (lit ".pun")]
  setOptInt p flag (lit "ARGUMENT_FILE") (lit "PROPERTY_FILE_EXIST") (lit "FILE_MUST_EXIST") 0

/-- io.cpp:250-269 and 279-291, the rules for one flag with a choice of strings. -/
def choiceRules (choices : List Str) (p : Parser D) (flag : Str) : Res (Parser D) := do
  let p ← setOptStr p flag (lit "ARGUMENT_STRING") (lit "PROPERTY_STRING_CHOICE") (lit "STRING_CHOICE_ENFORCED")
    (lit "true")
  setOptSet p flag (lit "ARGUMENT_STRING") (lit "PROPERTY_STRING_CHOICE") (lit "STRING_CHOICES") (strSet choices)

/-- io.cpp:299-303, 307-311, 315-319, the rules for one switch. -/
def switchRules (p : Parser D) (flag : Str) : Res (Parser D) := do
  let p ← setOptStr p flag (lit "ARGUMENT_SWITCH") (lit "PROPERTY_SWITCH") (lit "DEFAULT") (lit "OFF")
  .ok (setDefaultStr p flag (lit "OFF"))

/-- io.cpp:17-168: the set of flags calc_J declares. -/
def calcJFlagSet : List (List Str) := calcJFlags.foldl (fun s f => vecSetInsert f s) []

/-- io.cpp:15-333 `prepareParser`. -/
def prepareParser [Dbl D] : Res (Parser D) := do
  let p ← newParser calcJFlagSet
  let p ← [(lit "--pun_P"), (lit "--pun_1"), (lit "--pun_2")].foldlM punRules p
  let p ← [(lit "--log_P"), (lit "--log_1"), (lit "--log_2")].foldlM logRules p
  let spins := [(lit "--spin_P"), (lit "--spin_1"), (lit "--spin_2")]
  let p ← spins.foldlM (choiceRules [(lit "Alpha"), (lit "Beta")]) p
  let p := spins.foldl (fun p f => setDefaultStr p f (lit "Alpha")) p
  let types := [(lit "--orbital_type_1"), (lit "--orbital_type_2")]
  let p ← types.foldlM (choiceRules [(lit "HOMO"), (lit "LUMO")]) p
  let p := types.foldl (fun p f => setDefaultStr p f (lit "HOMO")) p
  let p ← switchRules p (lit "--counter_poise")
  let p ← switchRules p (lit "--citation")
  let p ← switchRules p (lit "--version")
  let p ← addFlagArg p (lit "--orbital_num_1") (lit "ARGUMENT_INT")
  let p ← addFlagArg p (lit "--orbital_num_2") (lit "ARGUMENT_INT")
  let p := setDefaultInt p (lit "--orbital_num_1") 0
  .ok (setDefaultInt p (lit "--orbital_num_2") 0)

/-- io.cpp:340-344, `flags` and `flags_sister`. -/
def fileFlags : List (Str × Str) :=
  [((lit "--pun_P"), (lit "--log_P")), ((lit "--pun_1"), (lit "--log_1")), ((lit "--pun_2"), (lit "--log_2")),
   ((lit "--log_P"), (lit "--pun_P")), ((lit "--log_1"), (lit "--pun_1")), ((lit "--log_2"), (lit "--pun_2"))]

/-- io.cpp:365-371: the last sister file said to exist, if any; `paths.at(countFiles)` may throw. -/
def pickSister (paths : List Str) : Nat → List Str → Option Str → Res (Option Str)
  | _, [], r => .ok r
  | count, e :: es, r =>
    if e = (lit "true") then
      match paths[count]? with
      | none => .throw .outOfRange
      | some f => pickSister paths (count + 1) es (some f)
    else pickSister paths (count + 1) es r

/-- io.cpp:346-372, one pass of the loop: `flag_arg` and `flag_sister_arg` afterwards. -/
def resolveStep [Dbl D] (p : Parser D) (st : Map Str × Map Str) (fl : Str × Str) : Res (Map Str × Map Str) := do
  let (flagArg, sisterArg) := st
  let argu := (lit "ARGUMENT_FILE")
  let exist ← getFlagArgOptValue p fl.1 argu (lit "PROPERTY_FILE_EXIST") (lit "FILE_DOES_EXIST")
  let flagArg ← if exist = (lit "1") then do
      let f ← getStr p fl.1
      .ok (flagArg.set fl.1 f)
    else .ok flagArg
  let line ← getFlagArgOptValue p fl.1 argu (lit "PROPERTY_SISTER_FILE") (lit "SISTER_FILE_EXISTS")
  let line2 ← getFlagArgOptValue p fl.1 argu (lit "PROPERTY_SISTER_FILE") (lit "SISTER_FILE_PATH_NAME")
  let picked ← pickSister (splitSt line2) 0 (splitSt line) none
  match picked with
  | none => .ok (flagArg, sisterArg)
  | some f => .ok (flagArg, sisterArg.set fl.2 f)

/-- io.cpp:376-417, the file used for a flag. -/
def fileFor (flagArg sisterArg : Map Str) (flag : Str) : Res Str :=
  match flagArg.get flag with
  | some f => .ok f
  | none =>
    match sisterArg.get flag with
    | some f => .ok f
    | none => .throw .runtimeError

/-- io.cpp:430-445 and 448-462: the orbital number allowed for an orbital type; `none` if the type is neither (the
number is then not set). -/
def orbNumFor (p : Parser D) (typ numFlag : Str) : Res (Option Int) :=
  if typ = (lit "HOMO") then do
    let mo ← getInt p numFlag
    if mo > 0 then .throw .invalidArgument else .ok (some mo)
  else if typ = (lit "LUMO") then do
    let mo ← getInt p numFlag
    if mo < 0 then .throw .invalidArgument else .ok (some mo)
  else .ok none

/-- io.cpp:335-465 `prepareParameters`; an `int` converts to `bool` as `≠ 0`. -/
def prepareParameters [Dbl D] (p : Parser D) : Res Params.Params := do
  let (flagArg, sisterArg) ← fileFlags.foldlM (resolveStep p) (([], []) : Map Str × Map Str)
  let par := Params.init
  let f ← fileFor flagArg sisterArg (lit "--pun_P")
  let par ← Params.setPunP par f
  let f ← fileFor flagArg sisterArg (lit "--pun_1")
  let par ← Params.setPun1 par f
  let f ← fileFor flagArg sisterArg (lit "--pun_2")
  let par ← Params.setPun2 par f
  let f ← fileFor flagArg sisterArg (lit "--log_P")
  let par ← Params.setLogP par f
  let f ← fileFor flagArg sisterArg (lit "--log_1")
  let par ← Params.setLog1 par f
  let f ← fileFor flagArg sisterArg (lit "--log_2")
  let par ← Params.setLog2 par f
  let s ← getStr p (lit "--spin_P")
  let par := { par with spinP := s }
  let s ← getStr p (lit "--spin_1")
  let par := { par with spin1 := s }
  let s ← getStr p (lit "--spin_2")
  let par := { par with spin2 := s }
  let n ← getInt p (lit "--counter_poise")
  let par := { par with counterPoise := n ≠ 0 }
  let n ← getInt p (lit "--citation")
  let par := { par with citation := some (n ≠ 0) }
  let t ← getStr p (lit "--orbital_type_1")
  let par := { par with orbType1 := t }
  let n ← orbNumFor p t (lit "--orbital_num_1")
  let par := { par with orbNum1 := n.getD par.orbNum1 }
  let t ← getStr p (lit "--orbital_type_2")
  let par := { par with orbType2 := t }
  let n ← orbNumFor p t (lit "--orbital_num_2")
  .ok { par with orbNum2 := n.getD par.orbNum2 }

end
end Verif.Args
