import Verif.Spec.Args
/-
The command line language of calc_J, as its usage text describes it (io.cpp:17-168), independent of the parser.
-/
namespace Verif.Args

/-- What a value-taking flag expects. -/
inductive Kind
  /-- a coefficient file -/
  | pun
  /-- a log file -/
  | log
  /-- a spin -/
  | spin
  /-- an orbital type -/
  | otype
  /-- an orbital number -/
  | onum
  deriving DecidableEq

/-- The value-taking flags of calc_J: full name, abbreviation, kind of value. -/
def valueFlags : List (Str × Str × Kind) := [
  (lit "--pun_P", lit "-p_P", .pun), (lit "--pun_1", lit "-p_1", .pun), (lit "--pun_2", lit "-p_2", .pun),
  (lit "--log_P", lit "-l_P", .log), (lit "--log_1", lit "-l_1", .log), (lit "--log_2", lit "-l_2", .log),
  (lit "--spin_P", lit "-s_P", .spin), (lit "--spin_1", lit "-s_1", .spin), (lit "--spin_2", lit "-s_2", .spin),
  (lit "--orbital_type_1", lit "-orb_ty_1", .otype), (lit "--orbital_type_2", lit "-orb_ty_2", .otype),
  (lit "--orbital_num_1", lit "-orb_num_1", .onum), (lit "--orbital_num_2", lit "-orb_num_2", .onum)]

/-- Tokens that only print something. -/
def infoTokens : List Str := [lit "--help", lit "-h", lit "--citation", lit "-cite"]

/-- Tokens that print the version and stop. -/
def versionTokens : List Str := [lit "--version", lit "-version"]

/-- Tokens of switches, and the switch they stand for. -/
def switchTokens : List (Str × Str) :=
  [(lit "--counter_poise", lit "--counter_poise"), (lit "-cp", lit "--counter_poise"), (lit "-v", lit "--version")]

/-- All tokens that are the full name or the abbreviation of a flag. -/
def flagTokens : List Str :=
  valueFlags.map (·.1) ++ valueFlags.map (·.2.1) ++ infoTokens ++ [lit "--version", lit "-v", lit "--counter_poise", lit "-cp"]

/-- `v` is a value of this kind. -/
def ValueOk : Kind → Str → Prop
  | .pun, v => ∃ dir core ext, PathParts v dir core ext ∧ ext ∈ [lit ".pun", lit ".orb", lit ".7"]
  | .log, v => ∃ dir core ext, PathParts v dir core ext ∧ ext = lit ".log"
  | .spin, v => v = lit "Alpha" ∨ v = lit "Beta"
  | .otype, v => v = lit "HOMO" ∨ v = lit "LUMO"
  | .onum, v => ∃ n, IntText v n ∧ -2 ^ 31 ≤ n ∧ n < 2 ^ 31

/-- One thing said on the command line. -/
inductive Asg
  /-- a flag (full name) with a value -/
  | value (flag : Str) (kind : Kind) (v : Str)
  /-- a switch (full name) turned on -/
  | switch (flag : Str)

/-- How a command line reads: value-taking flags take the next token whatever it is; information tokens are skipped;
a switch stands alone, so it is the last token or followed by another flag. -/
inductive Reads : List Str → List Asg → Prop
  | nil : Reads [] []
  | info {t ts as} (h : t ∈ infoTokens) : Reads ts as → Reads (t :: ts) as
  | value {f s k t v ts as} (h : (f, s, k) ∈ valueFlags) (ht : t = f ∨ t = s) :
      Reads ts as → Reads (t :: v :: ts) (.value f k v :: as)
  | switch {t f ts as} (h : (t, f) ∈ switchTokens) (hn : ∀ u us, ts = u :: us → u ∈ flagTokens) :
      Reads ts as → Reads (t :: ts) (.switch f :: as)

/-- The assignment, if it gives a value, gives one of the right kind. -/
def Asg.Ok : Asg → Prop
  | .value _ k v => ValueOk k v
  | .switch _ => True

/-- The values given to a flag, in order. -/
def given (f : Str) : List Asg → List Str
  | [] => []
  | .value g _ v :: as => if g = f then v :: given f as else given f as
  | .switch _ :: as => given f as

/-- The switch was given. -/
def turnedOn (f : Str) : List Asg → Bool
  | [] => false
  | .value _ _ _ :: as => turnedOn f as
  | .switch g :: as => g = f || turnedOn f as

/-- Command lines on which a version token is reached, everything before it being right. -/
inductive Stops : List Str → Prop
  | version {t ts} (h : t ∈ versionTokens) : Stops (t :: ts)
  | info {t ts} (h : t ∈ infoTokens) : Stops ts → Stops (t :: ts)
  | value {f s k t v ts} (h : (f, s, k) ∈ valueFlags) (ht : t = f ∨ t = s) (hv : ValueOk k v) :
      Stops ts → Stops (t :: v :: ts)
  | switch {t f ts} (h : (t, f) ∈ switchTokens) (hn : ∀ u us, ts = u :: us → u ∈ flagTokens) :
      Stops ts → Stops (t :: ts)

/-- The exception thrown at a value that is not of the kind wanted. -/
inductive BadValue : Kind → Str → Exn → Prop
  /-- an integer beyond `int` -/
  | large {v n} (h : IntText v n) (hr : ¬ (-2 ^ 31 ≤ n ∧ n < 2 ^ 31)) : BadValue .onum v .outOfRange
  | wrong {k v} (h : ¬ ValueOk k v) (hn : k = .onum → ¬ ∃ n, IntText v n) : BadValue k v .invalidArgument

/-- Command lines calc_J refuses, with the exception thrown at the first thing that is wrong. -/
inductive Refused : List Str → Exn → Prop
  | info {t ts e} (h : t ∈ infoTokens) : Refused ts e → Refused (t :: ts) e
  | value {f s k t v ts e} (h : (f, s, k) ∈ valueFlags) (ht : t = f ∨ t = s) (hv : ValueOk k v) : Refused ts e → Refused (t :: v :: ts) e
  | switch {t f ts e} (h : (t, f) ∈ switchTokens) (hn : ∀ u us, ts = u :: us → u ∈ flagTokens) : Refused ts e → Refused (t :: ts) e
  /-- a flag without its value -/
  | missing {f s k t} (h : (f, s, k) ∈ valueFlags) (ht : t = f ∨ t = s) : Refused [t] .runtimeError
  /-- a value of the wrong kind -/
  | bad {f s k t v ts e} (h : (f, s, k) ∈ valueFlags) (ht : t = f ∨ t = s) (hv : BadValue k v e) : Refused (t :: v :: ts) e
  /-- a switch followed by something else than a flag -/
  | stray {t f u ts} (h : (t, f) ∈ switchTokens) (hu : u ∉ flagTokens) : Refused (t :: u :: ts) .invalidArgument
  /-- something else than a flag -/
  | unknown {t ts} (h : t ∉ flagTokens) (hv : t ∉ versionTokens) : Refused (t :: ts) .invalidArgument

/-- The second command line is the first one with some flags, in flag position, given by their other name (full name or
abbreviation); anything from some point on may be the same in both. The version flag is left out. -/
inductive SameFlags : List Str → List Str → Prop
  | same (ts) : SameFlags ts ts
  | help {t t' ts ts'} (h : t ∈ [lit "--help", lit "-h"]) (h' : t' ∈ [lit "--help", lit "-h"]) :
      SameFlags ts ts' → SameFlags (t :: ts) (t' :: ts')
  | cite {t t' ts ts'} (h : t ∈ [lit "--citation", lit "-cite"]) (h' : t' ∈ [lit "--citation", lit "-cite"]) :
      SameFlags ts ts' → SameFlags (t :: ts) (t' :: ts')
  | counterPoise {t t' ts ts'} (h : t ∈ [lit "--counter_poise", lit "-cp"]) (h' : t' ∈ [lit "--counter_poise", lit "-cp"]) :
      SameFlags ts ts' → SameFlags (t :: ts) (t' :: ts')
  | value {f s k t t' v ts ts'} (h : (f, s, k) ∈ valueFlags) (ht : t = f ∨ t = s) (ht' : t' = f ∨ t' = s) :
      SameFlags ts ts' → SameFlags (t :: v :: ts) (t' :: v :: ts')
  | missing {f s k t t'} (h : (f, s, k) ∈ valueFlags) (ht : t = f ∨ t = s) (ht' : t' = f ∨ t' = s) :
      SameFlags [t] [t']

end Verif.Args
