import Verif.Spec.AnyParser
/-
Specification vocabulary: the command lines a parser accepts.
-/
namespace Verif.Args

/-- Among these properties, the property `pr` has the option `op` set to `x`. -/
def ArgOpt {S T : Type} (ps : List (PropObj S T)) (pr op : Str) (x : T) : Prop := ∃ q ∈ ps, q.vt.name = pr ∧ q.opts.get op = some x

section
variable {D : Type} [Dbl D]

/-- The text is an acceptable value of the flag, according to the kind of the flag's argument and the options set for it. -/
inductive Acceptable (fs : FS) (p : Parser D) (f v : Str) : Prop
  /-- an integer that fits an `int`, within the bounds -/
  | int {a : ArgObj Int D} {n lo hi : Int} (ha : p.intArg.get f = some a)
      (hlo : ArgOpt a.ints (lit "PROPERTY_INT") (lit "MIN") lo) (hhi : ArgOpt a.ints (lit "PROPERTY_INT") (lit "MAX") hi)
      (hn : IntText v n) (h32 : -2 ^ 31 ≤ n ∧ n < 2 ^ 31) (hr : lo ≤ n ∧ n ≤ hi)
  /-- a number, not below the lower and not above the upper bound -/
  | double {a : ArgObj D D} {x lo hi : D} (ha : p.doubleArg.get f = some a)
      (hlo : ArgOpt a.doubles (lit "PROPERTY_DOUBLE") (lit "MIN") lo) (hhi : ArgOpt a.doubles (lit "PROPERTY_DOUBLE") (lit "MAX") hi)
      (hx : Dbl.stod v = .ok x) (h1 : Dbl.lt x lo = false) (h2 : Dbl.lt hi x = false)
  /-- a text of admissible length, and one of the choices if those are enforced -/
  | str {a : ArgObj Str D} {lo hi : Nat} {e : Str} {es cs : List Str} (ha : p.strArg.get f = some a)
      (hlo : ArgOpt a.sizes (lit "PROPERTY_STRING") (lit "MIN_LENGTH") lo) (hhi : ArgOpt a.sizes (lit "PROPERTY_STRING") (lit "MAX_LENGTH") hi)
      (hen : ArgOpt a.sets (lit "PROPERTY_STRING_CHOICE") (lit "STRING_CHOICE_ENFORCED") (e :: es))
      (hch : ArgOpt a.sets (lit "PROPERTY_STRING_CHOICE") (lit "STRING_CHOICES") cs)
      (hr : lo ≤ v.length ∧ v.length ≤ hi) (hc : e = (lit "true") → v ∈ cs)
  /-- the path of a file with an allowed extension, that exists if it must -/
  | file {a : ArgObj Str D} {m : Int} {exts : List Str} {dir core ext : Str} (ha : p.fileArg.get f = some a)
      (hm : ArgOpt a.ints (lit "PROPERTY_FILE_EXIST") (lit "FILE_MUST_EXIST") m)
      (he : ArgOpt a.sets (lit "PROPERTY_FILE_EXT") (lit "ALLOWED_FILE_EXT") exts)
      (hp : PathParts v dir core ext) (hx : ext ∈ exts ∨ ∃ t, '*' :: t ∈ exts) (hf : m ≠ 0 → fs v = true)

/-- A file flag whose file must exist and of which no existing file has been seen yet. -/
def NeedsFile (p : Parser D) (f : Str) : Prop :=
  ∃ a m, p.fileArg.get f = some a ∧ ArgOpt a.ints (lit "PROPERTY_FILE_EXIST") (lit "FILE_MUST_EXIST") m ∧ m ≠ 0 ∧
    ArgOpt a.ints (lit "PROPERTY_FILE_EXIST") (lit "FILE_DOES_EXIST") 0

/-- A command line as the parser expects it, and what it says (see `Says`): flags followed by acceptable values, and switches each of which is
the last token or followed by a declared flag. -/
inductive Fine (fs : FS) (p : Parser D) : List Str → List (Str × Option Str) → Prop
  | nil : Fine fs p [] []
  | info {t ts as} (h : t ∈ infoTokens) : Fine fs p ts as → Fine fs p (t :: ts) as
  | value {t f v ts as} (hi : t ∉ infoTokens) (hv : t ∉ versionTokens) (hs : StandsFor p t f) (ok : Acceptable fs p f v) :
      Fine fs p ts as → Fine fs p (t :: v :: ts) ((f, some v) :: as)
  | switch {t f ts as} (hi : t ∉ infoTokens) (hv : t ∉ versionTokens) (hs : StandsFor p t f) (ha : HasArg p f .switch)
      (next : ∀ u ∈ ts.head?, ∃ g, StandsFor p u g) : Fine fs p ts as → Fine fs p (t :: ts) ((f, none) :: as)

/-- A request for the version stands where a flag is expected, after an acceptable beginning. -/
inductive AsksVersion (fs : FS) (p : Parser D) : List Str → Prop
  | here {t ts} (h : t ∈ versionTokens) : AsksVersion fs p (t :: ts)
  | info {t ts} (h : t ∈ infoTokens) : AsksVersion fs p ts → AsksVersion fs p (t :: ts)
  | value {t f v ts} (hi : t ∉ infoTokens) (hs : StandsFor p t f) (ok : Acceptable fs p f v) :
      AsksVersion fs p ts → AsksVersion fs p (t :: v :: ts)
  | switch {t f ts} (hi : t ∉ infoTokens) (hs : StandsFor p t f) (ha : HasArg p f .switch)
      (next : ∀ u ∈ ts.head?, ∃ g, StandsFor p u g) : AsksVersion fs p ts → AsksVersion fs p (t :: ts)

/-- Every text flag has been told whether its choices are enforced (setting STRING_CHOICE_ENFORCED to an empty set is undefined behaviour later). -/
def Enforcing (p : Parser D) : Prop :=
  ∀ f a, p.strArg.get f = some a → ¬ ArgOpt a.sets (lit "PROPERTY_STRING_CHOICE") (lit "STRING_CHOICE_ENFORCED") []

/-- Reading a number gives a number or throws. -/
def StodOk (D : Type) [Dbl D] : Prop := ∀ v, (∃ x : D, Dbl.stod v = .ok x) ∨ ∃ e, (Dbl.stod v : Res D) = .throw e

/-- What setting an option does: the argument the flag has then has the option, its other options are as before (or the defaults, if the flag had
no such argument), and the arguments of other flags are as before. -/
structure OptSet {S T : Type} (new : ArgObj S D) (m m' : Map (ArgObj S D)) (flag : Str) (ps : ArgObj S D → List (PropObj S T)) (pr op : Str) (x : T) : Prop where
  self : ∃ a, m'.get flag = some a ∧ ∀ op' y, ArgOpt (ps a) pr op' y ↔ if op' = op then y = x else ArgOpt (ps ((m.get flag).getD new)) pr op' y
  others : ∀ g, g ≠ flag → m'.get g = m.get g

end
end Verif.Args
