import Verif.Spec.CutOff
/-
Lines of the files that belong to no table.
-/
namespace Verif.Chatter
open Readers Log

/-- `t'` is `t` with the lines `extra` added before its line `m`. -/
structure Inserted (t t' : Str) (m : Nat) (extra : List Str) : Prop where
  line : m < (textLines t).length
  text : textLines t' = (textLines t).take m ++ extra ++ (textLines t).drop m

/-- A line that announces no table of a punch file. -/
def PunChat (l : Str) : Prop := ∀ spin, ¬ Pun.Announces l spin

/-- A line that announces no table of a log file, and lists no energies either. -/
def LogChat (l : Str) : Prop := (∀ k, ¬ LogLines.Announces l k) ∧ ∀ spin, ¬ LogLines.IsOcc spin l ∧ ¬ LogLines.IsVirt spin l

/-- `t'` is the punch file `t` with such lines added in any number of places that are not within a table. -/
inductive PunAdded (α : Type) [Mul α] [Num α] (t : Str) : Str → Prop
  | none : PunAdded α t t
  | lines {t' t'' m extra} {d : Pun.Known α} : PunAdded α t t' → Inserted t' t'' m extra → Pun.Upto t' 0 (fun _ => Option.none) m d →
      (∀ l ∈ extra, PunChat l) → PunAdded α t t''

/-- The same for a log file. -/
inductive LogAdded (α : Type) [Mul α] [Num α] (t : Str) : Str → Prop
  | none : LogAdded α t t
  | lines {t' t'' m extra} {d : LogLines.Known α} : LogAdded α t t' → Inserted t' t'' m extra → LogLines.Upto t' 0 LogLines.nothing m d →
      (∀ l ∈ extra, LogChat l) → LogAdded α t t''

/-- The files the second time: the same names, and in the files with the names of punch and of log files, lines may have been added. -/
structure FilesAdded (α : Type) [Mul α] [Num α] (files files' : Str → Option Str) : Prop where
  names : ∀ name, files' name = none ↔ files name = none
  pun : ∀ name t t', PlainName (lit ".pun") name → files name = some t → files' name = some t' → PunAdded α t t'
  log : ∀ name t t', PlainName (lit ".log") name → files name = some t → files' name = some t' → LogAdded α t t'

/-- The two come out the same: with readers of which `same` is true, with the same exception or exit status, or never. -/
structure SameReading {γ : Type} (same : γ → γ → Prop) (f f' : Nat → Res γ) : Prop where
  there : ∀ D, Ends f (.ok D) → ∃ D', Ends f' (.ok D') ∧ same D D'
  back : ∀ D', Ends f' (.ok D') → ∃ D, Ends f (.ok D) ∧ same D D'
  throws : ∀ e, Ends f (.throw e) ↔ Ends f' (.throw e)
  exits : ∀ c, Ends f (.exit c) ↔ Ends f' (.exit c)
  hangs : Hangs f ↔ Hangs f'

end Verif.Chatter
