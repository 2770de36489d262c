import Verif.Spec.LogFile
import Verif.Spec.Feed
import Verif.LogReader
/-
What a log file made of two parts says.
-/
namespace Verif.Log
open Readers

variable {α : Type}

/-- `d'` is what is known after reading a first part that says `d0` and then a second part that says `d`: what the second part says,
and where it is silent, what the first one says. (Basis functions: if both have population tables nothing is stated.) -/
structure Joined (d0 d d' : LogData α) : Prop where
  coords : (d.getCoords ≠ [] → d'.getCoords = d.getCoords) ∧ (d.getCoords = [] → d'.getCoords = d0.getCoords)
  overlap : (∀ m, d.getOverlapMatrix = .ok m → d'.getOverlapMatrix = .ok m) ∧
    ((∀ m, d.getOverlapMatrix ≠ .ok m) → d'.getOverlapMatrix = d0.getOverlapMatrix)
  energies : ∀ key, (∀ v, d.getOE key = .ok v → d'.getOE key = .ok v) ∧ ((∀ v, d.getOE key ≠ .ok v) → d'.getOE key = d0.getOE key)
  homo : ∀ key, (∀ v, d.getHOMOLevel key = .ok v → d'.getHOMOLevel key = .ok v) ∧
    ((∀ v, d.getHOMOLevel key ≠ .ok v) → d'.getHOMOLevel key = d0.getHOMOLevel key)
  basis : (d0.getBasisFuncCount = [] → d'.getBasisFuncCount = d.getBasisFuncCount) ∧
    (d.getBasisFuncCount = [] → d'.getBasisFuncCount = d0.getBasisFuncCount)

/-- A first part of a log file: complete tables and plain lines, such that the line after a table of energies - in this part or in
the text `rest` that follows - does not look as if it belonged to it. -/
def FirstPart [Mul α] [Num α] (ps : List (Piece α)) (rest : Str) : Prop :=
  (∀ p ∈ ps, p.Ok) ∧ ∀ before spin es following, ps = before ++ .energies spin es :: following →
    NoEnergyLine spin (lineAt (unlines (following.flatMap Piece.lines) ++ rest) 0)

end Verif.Log
