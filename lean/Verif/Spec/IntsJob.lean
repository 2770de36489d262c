import Verif.Main
/-
Specification vocabulary for C125: how much calc_J may be asked to hold.
-/
namespace Verif.Ints
open Readers
variable {α : Type}

/-- A log file with at most 46340 basis functions, orbital energies of each spin, and atoms. -/
structure SmallLog (d : LogData α) : Prop where
  overlap : ∀ S, d.getOverlapMatrix = .ok S → S.rows ≤ 46340
  energies : ∀ spin es, d.getOE spin = .ok es → es.length ≤ 46340
  atoms : ∀ xs ∈ d.getCoords, xs.length ≤ 46340
  basis : d.getBasisFuncCount.sum ≤ 46340

/-- A pun file with at most 46340 orbitals of each spin, over at most 46340 basis functions. -/
structure SmallPun (d : PunData α) : Prop where
  coefs : ∀ spin m, d.getCoefsMatrix spin = .ok m → m.rows ≤ 46340 ∧ m.cols ≤ 46340

end Verif.Ints
