import Verif.Spec.Refuses
import Verif.ArgLeft
/-
Specification vocabulary for C134: what a parser holds after a command line it refused.
-/
namespace Verif.Args

section
variable {D : Type} [Dbl D]

/-- The command line begins as the parser expects it; that beginning says `as` (see `Says`), and `rest` follows. -/
inductive Begins (fs : FS) (p : Parser D) : List Str → List (Str × Option Str) → List Str → Prop
  | here (ts) : Begins fs p ts [] ts
  | info {t ts as rest} (h : t ∈ infoTokens) : Begins fs p ts as rest → Begins fs p (t :: ts) as rest
  | value {t f v ts as rest} (hi : t ∉ infoTokens) (hv : t ∉ versionTokens) (hs : StandsFor p t f) (ok : Acceptable fs p f v) :
      Begins fs p ts as rest → Begins fs p (t :: v :: ts) ((f, some v) :: as) rest
  | switch {t f ts as rest} (hi : t ∉ infoTokens) (hv : t ∉ versionTokens) (hs : StandsFor p t f) (ha : HasArg p f .switch)
      (next : ∀ u ∈ ts.head?, ∃ g, StandsFor p u g) : Begins fs p ts as rest → Begins fs p (t :: ts) ((f, none) :: as) rest

/-- The very next thing is wrong, and met with the exception. `tried` is the value the parser was looking at, `word` the text it took
for the setting of a switch. -/
inductive Mistake (fs : FS) (p : Parser D) : List Str → Exn → (tried : List (Str × Option Str)) → (word : Option (Str × Str)) → Prop
  /-- a flag without its value -/
  | missing {t f k} (hi : t ∉ infoTokens) (hv : t ∉ versionTokens) (hs : StandsFor p t f) (ha : HasArg p f k) (hk : k ≠ .switch) :
      Mistake fs p [t] .runtimeError [] none
  /-- a value that is not acceptable -/
  | bad {t f v ts e} (hi : t ∉ infoTokens) (hv : t ∉ versionTokens) (hs : StandsFor p t f) (hb : Unacceptable fs p f v e) :
      Mistake fs p (t :: v :: ts) e [(f, some v)] none
  /-- a switch followed by something that is neither a flag nor a setting -/
  | stray {t f u ts} (hi : t ∉ infoTokens) (hv : t ∉ versionTokens) (hs : StandsFor p t f) (ha : HasArg p f .switch)
      (hu : ∀ g, ¬ StandsFor p u g) (hw : u ∉ [(lit "0"), (lit "1"), (lit "ON"), (lit "OFF"), (lit "TRUE"), (lit "FALSE")]) :
      Mistake fs p (t :: u :: ts) .invalidArgument [] none
  /-- a switch followed by a setting: it is stored, and then taken for a flag -/
  | setting {t f u ts} (hi : t ∉ infoTokens) (hv : t ∉ versionTokens) (hs : StandsFor p t f) (ha : HasArg p f .switch)
      (hu : ∀ g, ¬ StandsFor p u g) (hw : u ∈ [(lit "0"), (lit "1"), (lit "ON"), (lit "OFF"), (lit "TRUE"), (lit "FALSE")]) :
      Mistake fs p (t :: u :: ts) .invalidArgument [] (some (f, u))
  /-- something that is not a flag with an argument -/
  | unknown {t ts} (hi : t ∉ infoTokens) (hv : t ∉ versionTokens) (hn : ∀ f k, StandsFor p t f → ¬ HasArg p f k) :
      Mistake fs p (t :: ts) .invalidArgument [] none

/-- The values the parser was looking at until it refused the command line. -/
inductive Looked (fs : FS) (p : Parser D) : List Str → List (Str × Option Str) → Prop
  | nothing : Looked fs p [] []
  | mistake {args as rest e tried word} : Begins fs p args as rest → Mistake fs p rest e tried word → Looked fs p args (as ++ tried)
  | whole {args as} : Fine fs p args as → Looked fs p args as

/-- What the flags that are not in `ex` hold after `as` was read: the last value given, or else the value they had before. -/
structure Seen (p : Parser D) (as : List (Str × Option Str)) (q : Parser D) (ex : Str → Prop) : Prop where
  int : ∀ f, ¬ ex f → HasArg p f .int →
    (∀ v, lastSaid f as = some v → ∃ s n, v = some s ∧ IntText s n ∧ getInt q f = .ok n) ∧ (lastSaid f as = none → getInt q f = getInt p f)
  str : ∀ f, ¬ ex f → HasArg p f .str ∨ HasArg p f .file →
    (∀ v, lastSaid f as = some v → ∃ s, v = some s ∧ getStr q f = .ok s) ∧ (lastSaid f as = none → getStr q f = getStr p f)
  double : ∀ f, ¬ ex f → HasArg p f .double →
    (∀ v, lastSaid f as = some v → ∃ s x, v = some s ∧ Dbl.stod s = .ok x ∧ getDouble q f = .ok x) ∧
    (lastSaid f as = none → getDouble q f = getDouble p f)
  switch : ∀ f, ¬ ex f → HasArg p f .switch →
    (∀ v, lastSaid f as = some v → v = none ∧ getInt q f = .ok 1 ∧ (p.strs.get f = none → getStr q f = .ok (lit "ON"))) ∧
    (lastSaid f as = none → getInt q f = getInt p f ∧ getStr q f = getStr p f)
  size : ∀ f, getSize q f = getSize p f
  other : ∀ f, (∀ k, ¬ HasArg p f k) → getInt q f = getInt p f ∧ getStr q f = getStr p f ∧ getDouble q f = getDouble p f

/-- What the rules for command lines have become: the same flags, arguments and options; only a file that must exist need not be named
any more if one of the paths looked at exists. -/
structure Rules (fs : FS) (p : Parser D) (as : List (Str × Option Str)) (q : Parser D) : Prop where
  flags : q.flags = p.flags
  kinds : ∀ f k, HasArg q f k ↔ HasArg p f k
  values : ∀ fs' f v, Acceptable fs' q f v ↔ Acceptable fs' p f v
  needs : ∀ f, NeedsFile q f ↔ NeedsFile p f ∧ ∀ v, (f, some v) ∈ as → fs v = false

/-- Two parsers agree in everything that can be read from them, but for the values of the flags in `ex` and the options in `op`. -/
structure Alike (q q' : Parser D) (ex : Str → Prop) (op : Str → Str → Str → Prop) : Prop where
  flags : q.flags = q'.flags
  kinds : ∀ f k, HasArg q f k ↔ HasArg q' f k
  values : ∀ f, ¬ ex f → getInt q f = getInt q' f ∧ getStr q f = getStr q' f
  double : ∀ f, getDouble q f = getDouble q' f
  size : ∀ f, getSize q f = getSize q' f
  options : ∀ f arg pr o, ¬ op f pr o → getFlagArgOptValue q f arg pr o = getFlagArgOptValue q' f arg pr o

end

/-- The flag whose switch took a setting. -/
def Worded (word : Option (Str × Str)) (f : Str) : Prop := ∃ u, word = some (f, u)

/-- The one option a refused path may change. -/
def DoesExist (tried : List (Str × Option Str)) (f pr op : Str) : Prop :=
  (∃ v, (f, some v) ∈ tried) ∧ pr = (lit "PROPERTY_FILE_EXIST") ∧ op = (lit "FILE_DOES_EXIST")

/-- The call gives the result, and changes nothing if it throws. -/
def AllOrNothing {σ : Type} (x : Left σ) (r : Res σ) (p : σ) : Prop := x.outcome = r ∧ ∀ e, x.2 = .throw e → x.1 = p

end Verif.Args
