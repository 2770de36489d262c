import Verif.Spec.Joined
import Verif.Spec.Chatter
/-
Files as sections: texts that are complete in themselves, one after the other.
-/
namespace Verif.Sectioned
open Readers Log

variable {α : Type} [Mul α] [Num α]

/-- A section of a log file: lines that are read as a log file that says `d`, no table of which takes more than these lines; the first of
the lines is none with energies. -/
structure LogSection (ls : List Str) (d : LogLines.Known α) : Prop where
  lines : ∀ l ∈ ls, IsLine l
  read : LogLines.Upto (unlines ls) 0 LogLines.nothing ls.length d
  first : ∀ l ∈ ls.head?, ∀ spin, ¬ LogLines.IsOcc spin l ∧ ¬ LogLines.IsVirt spin l

/-- Two sections have no table of the same kind, except of basis functions. -/
def LogApart (d d' : LogLines.Known α) : Prop :=
  (d.coords = none ∨ d'.coords = none) ∧ (∀ spin, d.energies spin = none ∨ d'.energies spin = none) ∧ (d.overlap = none ∨ d'.overlap = none)

/-- Two sections of a punch file have no table for the same spin. -/
def PunApart (d d' : Pun.Known α) : Prop := ∀ spin, d spin = none ∨ d' spin = none

/-- `t'` consists of the sections of the punch file `t` in another order, and the same text after them. -/
def PunRearranged (α : Type) [Mul α] [Num α] (t t' : Str) : Prop :=
  ∃ (secs secs' : List (List Str × Pun.Known α)) (rest : Str), t = unlines (secs.flatMap (·.1)) ++ rest ∧ t' = unlines (secs'.flatMap (·.1)) ++ rest ∧
    secs.Perm secs' ∧ (∀ s ∈ secs, Joined.PunFirst s.1 s.2) ∧ secs.Pairwise (fun s s' => PunApart s.2 s'.2)

/-- The same for a log file. The text after the sections does not begin with energies. -/
def LogRearranged (α : Type) [Mul α] [Num α] (t t' : Str) : Prop :=
  ∃ (secs secs' : List (List Str × LogLines.Known α)) (rest : Str), t = unlines (secs.flatMap (·.1)) ++ rest ∧ t' = unlines (secs'.flatMap (·.1)) ++ rest ∧
    secs.Perm secs' ∧ (∀ s ∈ secs, LogSection s.1 s.2) ∧ secs.Pairwise (fun s s' => LogApart s.2 s'.2) ∧
    ∀ spin, ¬ LogLines.IsOcc spin (lineAt rest 0) ∧ ¬ LogLines.IsVirt spin (lineAt rest 0)

/-- The files the second time: the same names, the sections of the punch and log files in another order. -/
structure FilesRearranged (α : Type) [Mul α] [Num α] (files files' : Str → Option Str) : Prop where
  names : ∀ name, files' name = none ↔ files name = none
  pun : ∀ name t t', PlainName (lit ".pun") name → files name = some t → files' name = some t' → PunRearranged α t t'
  log : ∀ name t t', PlainName (lit ".log") name → files name = some t → files' name = some t' → LogRearranged α t t'

end Verif.Sectioned
