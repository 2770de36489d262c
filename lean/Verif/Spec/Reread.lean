import Verif.Spec.LogLines
import Verif.PunReader
/-
Specification vocabulary for C123: reading again. What a text says is in Spec/PunLines and Spec/LogLines; here is what is known after several
texts have been read, one after the other, by the same reader.
-/
namespace Verif

namespace Pun
open Readers
variable {α : Type} [Mul α] [Num α]

/-- What is known after the texts were read one after the other: what was known before stays unless it is listed again. -/
inductive Told : List Str → Known α → Prop
  | nil : Told [] (fun _ => none)
  | snoc {ts t d d'} : Told ts d → Says t 0 d d' → Told (ts ++ [t]) d'

/-- The getters give what is known. -/
structure Gives [Zero α] (D : PunData α) (d : Known α) : Prop where
  tables : ∀ (spin : Log.Spin) rows, d spin = some rows → ∃ m, D.getCoefsMatrix spin.name = .ok m ∧ m.rows = rows.length ∧
    m.cols = (rows.headD []).length ∧
    ∀ (i : Nat) (hi : i < rows.length) (j : Nat) (hj : j < rows[i].length), m.getElem2 (i + 1) (j + 1) = .ok (rows[i][j])
  missing : ∀ spin : Log.Spin, d spin = none → D.getCoefsMatrix spin.name = .throw .invalidArgument
  shell : D.restrictedShell = true ↔ ((d .alpha).isSome ≠ (d .beta).isSome)

end Pun

namespace LogLines
open Readers Log
variable {α : Type} [Mul α] [Num α]

/-- The first line announces energies. -/
def StartsWithEnergies (t : Str) : Prop := ¬ Pun.NoLine t 0 ∧ ∃ spin, Announces (lineAt t 0) (.energies spin)

/-- The energies of the spin are lost: an empty list, no occupied orbital. -/
def lose (spin : Spin) (d : Known α) : Known α := { d with energies := fun s => if s = spin then some ([], 0) else d.energies s }

/-- What is known after the texts were read one after the other. What was known before stays unless it is listed again (and the lists of
functions are put together); but if a text starts with energies, and is not the first one and not longer than the one before, then these
energies are lost and the rest of the text does not matter. -/
inductive Told : List Str → Known α → Prop
  | nil : Told [] nothing
  | first {t d} : Says t 0 nothing d → Told [t] d
  | plain {ts t d d'} : Told ts d → ¬ StartsWithEnergies t → Says t 0 d d' → Told (ts ++ [t]) d'
  | lost {ts u t d spin} : Told (ts ++ [u]) d → u ≠ [] → t.length ≤ u.length → ¬ Pun.NoLine t 0 → Announces (lineAt t 0) (.energies spin) →
      Told (ts ++ [u, t]) (lose spin d)

/-- A text that starts with energies is the first one, or not longer than the one before. -/
def NoLonger (texts : List Str) : Prop := ∀ a u t b, texts = a ++ u :: t :: b → StartsWithEnergies t → u ≠ [] ∧ t.length ≤ u.length

end LogLines
end Verif
