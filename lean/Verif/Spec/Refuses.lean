import Verif.Spec.Accepts
/-
Specification vocabulary for C131: the command lines an arbitrary parser refuses, and the exception it throws.
-/
namespace Verif.Args

section
variable {D : Type} [Dbl D]

/-- The exception thrown at the text `v` given as the value of the flag `f`. -/
inductive Unacceptable (fs : FS) (p : Parser D) (f v : Str) : Exn → Prop
  /-- an integer beyond `int` -/
  | large {n} (ha : HasArg p f .int) (hn : IntText v n) (hr : ¬ (-2 ^ 31 ≤ n ∧ n < 2 ^ 31)) : Unacceptable fs p f v .outOfRange
  /-- a number `std::stod` does not read: its exception -/
  | unread {e} (ha : HasArg p f .double) (hx : (Dbl.stod v : Res D) = .throw e) : Unacceptable fs p f v e
  /-- anything else the options of the flag do not allow -/
  | wrong {k} (ha : HasArg p f k) (hk : k ≠ .switch) (hn : ¬ Acceptable fs p f v)
      (hint : k = .int → ∀ n, IntText v n → -2 ^ 31 ≤ n ∧ n < 2 ^ 31) (hdbl : k = .double → ∃ x : D, Dbl.stod v = .ok x) :
      Unacceptable fs p f v .invalidArgument

/-- Command lines the parser refuses, with the exception thrown at the first thing that is wrong. -/
inductive Refuses (fs : FS) (p : Parser D) : List Str → Exn → Prop
  | info {t ts e} (h : t ∈ infoTokens) : Refuses fs p ts e → Refuses fs p (t :: ts) e
  | value {t f v ts e} (hi : t ∉ infoTokens) (hv : t ∉ versionTokens) (hs : StandsFor p t f) (ok : Acceptable fs p f v) :
      Refuses fs p ts e → Refuses fs p (t :: v :: ts) e
  | switch {t f ts e} (hi : t ∉ infoTokens) (hv : t ∉ versionTokens) (hs : StandsFor p t f) (ha : HasArg p f .switch)
      (next : ∀ u ∈ ts.head?, ∃ g, StandsFor p u g) : Refuses fs p ts e → Refuses fs p (t :: ts) e
  /-- a flag without its value -/
  | missing {t f k} (hi : t ∉ infoTokens) (hv : t ∉ versionTokens) (hs : StandsFor p t f) (ha : HasArg p f k) (hk : k ≠ .switch) :
      Refuses fs p [t] .runtimeError
  /-- a value that is not acceptable -/
  | bad {t f v ts e} (hi : t ∉ infoTokens) (hv : t ∉ versionTokens) (hs : StandsFor p t f) (hb : Unacceptable fs p f v e) :
      Refuses fs p (t :: v :: ts) e
  /-- a switch followed by something that is not a flag -/
  | stray {t f u ts} (hi : t ∉ infoTokens) (hv : t ∉ versionTokens) (hs : StandsFor p t f) (ha : HasArg p f .switch)
      (hu : ∀ g, ¬ StandsFor p u g) : Refuses fs p (t :: u :: ts) .invalidArgument
  /-- something that is not a flag with an argument -/
  | unknown {t ts} (hi : t ∉ infoTokens) (hv : t ∉ versionTokens) (hn : ∀ f k, StandsFor p t f → ¬ HasArg p f k) :
      Refuses fs p (t :: ts) .invalidArgument

/-- The command line is as the parser expects it, but a file that must exist was not named. -/
def Lacks (fs : FS) (p : Parser D) (args : List Str) : Prop :=
  ∃ as, Fine fs p args as ∧ as ≠ [] ∧ ∃ f, NeedsFile p f ∧ ∀ v, (f, some v) ∉ as

end
end Verif.Args
