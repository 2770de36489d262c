import Verif.Spec.CutOff
import Verif.PunReader
/-
Two files joined: the output of one calculation, and that of another after it in the same file.
-/
namespace Verif.Joined
open Readers Log

variable {α : Type} [Mul α] [Num α]

/-- What is known of the coefficients when `d1` was known and then `d2` is read: for each spin, the later table if there is one. -/
def punAfter (d1 d2 : Pun.Known α) : Pun.Known α := fun spin => (d2 spin).or (d1 spin)

/-- The same for log files: the later tables, but the basis functions of both. -/
def logAfter (d1 d2 : LogLines.Known α) : LogLines.Known α :=
  ⟨d2.coords.or d1.coords, fun spin => (d2.energies spin).or (d1.energies spin), d2.overlap.or d1.overlap, d1.functions ++ d2.functions⟩

/-- The lines `first` are read as a punch file that says `d1`, and no table takes more than these lines. -/
structure PunFirst (first : List Str) (d1 : Pun.Known α) : Prop where
  lines : ∀ l ∈ first, IsLine l
  read : Pun.Upto (unlines first) 0 (fun _ => none) first.length d1

/-- The same for a log file; `next`, the text after it, does not begin with energies that would be taken for more of the same. -/
structure LogFirst (first : List Str) (next : Str) (d1 : LogLines.Known α) : Prop where
  lines : ∀ l ∈ first, IsLine l
  read : LogLines.Upto (unlines first) 0 LogLines.nothing first.length d1
  next : ∀ spin, ¬ LogLines.IsOcc spin (lineAt next 0) ∧ ¬ LogLines.IsVirt spin (lineAt next 0)

/-- The files the second time: in front of a file there may be the output of an earlier calculation, of which all is replaced: what the
earlier one has tables of the later one has, and the same basis functions are listed. -/
structure FilesJoined (α : Type) [Mul α] [Num α] (files files' : Str → Option Str) : Prop where
  names : ∀ name, files' name = none ↔ files name = none
  pun : ∀ name t t', PlainName (lit ".pun") name → files name = some t → files' name = some t' →
    ∃ (first : List Str) (d1 : Pun.Known α), t' = unlines first ++ t ∧ PunFirst first d1 ∧
      ∀ d2 : Pun.Known α, Pun.Says t 0 (fun _ => none) d2 → ∀ spin, d2 spin = none → d1 spin = none
  log : ∀ name t t', PlainName (lit ".log") name → files name = some t → files' name = some t' →
    ∃ (first : List Str) (d1 : LogLines.Known α), t' = unlines first ++ t ∧ LogFirst first t d1 ∧
      ∀ d2 : LogLines.Known α, LogLines.Says t 0 LogLines.nothing d2 →
        (d2.coords = none → d1.coords = none) ∧ (∀ spin, d2.energies spin = none → d1.energies spin = none) ∧ (d2.overlap = none → d1.overlap = none) ∧
        ∀ x ∈ d1.functions, x ∈ d2.functions

/-- A reader `D` of punch files gives what `D2` gives, or else what `D1` gives. -/
structure LaterPun (D1 D2 D : PunData α) : Prop where
  later : ∀ (spin : Log.Spin) M, D2.getCoefsMatrix spin.name = .ok M → D.getCoefsMatrix spin.name = .ok M
  earlier : ∀ spin : Log.Spin, (∀ M, D2.getCoefsMatrix spin.name ≠ .ok M) → D.getCoefsMatrix spin.name = D1.getCoefsMatrix spin.name

/-- The same for log files. -/
structure LaterLog (D1 D2 D : LogData α) : Prop where
  coords : D.getCoords = if D2.getCoords = [] then D1.getCoords else D2.getCoords
  energies : ∀ spin : Log.Spin, (∀ es, D2.getOE spin.name = .ok es → D.getOE spin.name = .ok es ∧ D.getHOMOLevel spin.name = D2.getHOMOLevel spin.name) ∧
    ((∀ es, D2.getOE spin.name ≠ .ok es) → D.getOE spin.name = D1.getOE spin.name ∧ D.getHOMOLevel spin.name = D1.getHOMOLevel spin.name)
  overlap : (∀ S, D2.getOverlapMatrix = .ok S → D.getOverlapMatrix = .ok S) ∧
    ((∀ S, D2.getOverlapMatrix ≠ .ok S) → D.getOverlapMatrix = D1.getOverlapMatrix)

end Verif.Joined
