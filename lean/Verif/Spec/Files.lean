import Verif.Spec.CalcJ
import Verif.Spec.Strings
/-
Which input files calc_J is meant to use (independent of the code): the file given for a flag if it exists, else a file
next to the one given for the companion flag, with the same name and another extension.
-/
namespace Verif.Args

/-- The six input files: flag, companion flag, extensions tried next to the companion's file (in increasing order of
preference). -/
def inputFiles : List (Str × Str × List Str) := [
  (lit "--pun_P", lit "--log_P", [lit ".orb", lit ".7", lit ".pun"]),
  (lit "--pun_1", lit "--log_1", [lit ".orb", lit ".7", lit ".pun"]),
  (lit "--pun_2", lit "--log_2", [lit ".orb", lit ".7", lit ".pun"]),
  (lit "--log_P", lit "--pun_P", [lit ".log"]),
  (lit "--log_1", lit "--pun_1", [lit ".log"]),
  (lit "--log_2", lit "--pun_2", [lit ".log"])]

/-- The file to use for flag `f` with companion `g`. -/
inductive UsesFile (exists_ : Str → Bool) (as : List Asg) (f g : Str) (exts : List Str) : Str → Prop
  | explicit {v} (h : v ∈ given f as) (he : exists_ v = true) : UsesFile exists_ as f g exts v
  | sister {w dir core ext e} (hn : ∀ v ∈ given f as, exists_ v = false) (h : w ∈ given g as)
      (hp : PathParts w dir core ext) (hm : e ∈ exts) (he : exists_ (dir ++ core ++ e) = true) :
      UsesFile exists_ as f g exts (dir ++ core ++ e)

/-- There is no file to use for flag `f`. -/
def NoFile (exists_ : Str → Bool) (as : List Asg) (f g : Str) (exts : List Str) : Prop :=
  ∀ x, ¬ UsesFile exists_ as f g exts x

/-- The file found next to the file `w`, in the way calc_J looks for it: the candidates (one for each extension) are written one after the
other, a blank behind each, and if the last candidate that exists is the n-th, the n-th word of this text is taken. For names without white
space that is the last candidate that exists. -/
def NextTo (exists_ : Str → Bool) (exts : List Str) (w : Option Str) (r : Option Str) : Prop :=
  match w with
  | none => r = none
  | some w => ∃ dir core ext words, PathParts w dir core ext ∧ Strings.Layout (exts.flatMap (fun e => dir ++ core ++ e ++ [' '])) words ∧
      ((∀ e ∈ exts, exists_ (dir ++ core ++ e) = false) ∧ r = none ∨
        ∃ before e after x, exts = before ++ e :: after ∧ exists_ (dir ++ core ++ e) = true ∧
          (∀ e' ∈ after, exists_ (dir ++ core ++ e') = false) ∧ words[before.length]? = some x ∧ r = some x)

/-- The file calc_J takes for flag `f` with companion `g`, on any command line: if one of the files given exists, the last one given; else
the one found next to the last file given for the companion. -/
def Takes (exists_ : Str → Bool) (as : List Asg) (f g : Str) (exts : List Str) (r : Option Str) : Prop :=
  ((∃ v ∈ given f as, exists_ v = true) → r = (given f as).getLast?) ∧
  ((∀ v ∈ given f as, exists_ v = false) → NextTo exists_ exts (given g as).getLast? r)

/-- The orbital number has the sign its type demands. -/
def SignOk (typ : Str) (n : Int) : Prop := (typ = lit "HOMO" → n ≤ 0) ∧ (typ = lit "LUMO" → 0 ≤ n)

instance (typ : Str) (n : Int) : Decidable (SignOk typ n) := by unfold SignOk; infer_instance

/-- The type of orbital asked for: the last one given, HOMO if none is. -/
def askedType (as : List Asg) (f : Str) : Str := (given f as).getLast?.getD (lit "HOMO")

/-- The spin asked for: the last one given, Alpha if none is. -/
def askedSpin (as : List Asg) (f : Str) : Str := (given f as).getLast?.getD (lit "Alpha")

/-- The orbital number asked for: the integer the last value given starts with, 0 if none is. -/
def AskedNum (as : List Asg) (f : Str) (n : Int) : Prop :=
  match (given f as).getLast? with
  | none => n = 0
  | some v => IntText v n

/-- The extension the file of an input flag must have. -/
def needed (f : Str) : Str := if f ∈ [lit "--pun_P", lit "--pun_1", lit "--pun_2"] then lit ".pun" else lit ".log"

end Verif.Args
