import Verif.Spec.Transfer
import Verif.Spec.QC
import Verif.Spec.LogFile
import Verif.Spec.Pun
/-
Specification vocabulary for C79: the number calc_J is meant to report.
-/
namespace Verif.QC

/-- `J` is the coupling of orbital number `row1` of monomer 1 (the row of its coefficient matrix) and orbital number `row2` of
monomer 2 in the dimer with the given coefficients, overlap matrix and orbital energies `E`: all matrices are well formed, their
sizes fit together, and the orbitals exist. -/
def IsCoupling {α : Type} [Field α] (cp : Bool) (coef1 coef2 coefP S : Mat α) (E : List α) (row1 row2 : Int) (J : α) : Prop :=
  ∃ N1 n1 N2 n2 M N K c1 c2 C s, Values coef1 N1 n1 c1 ∧ Values coef2 N2 n2 c2 ∧ Values coefP M N C ∧ Values S K N s ∧
    E.length = M ∧ Conforming cp n1 n2 K ∧ 1 ≤ row1 ∧ row1 ≤ N1 ∧ 1 ≤ row2 ∧ row2 ≤ N2 ∧
    J = coupling M (proj K N (zetaA cp n1 (c1 row1)) s C) (proj K N (zetaB cp n1 (c2 row2)) s C) (fun m => E.getD (m - 1).toNat 0)

end Verif.QC

namespace Verif.Job
open Log Pun Readers

variable {α : Type}

/-- The two output files of a calculation: pieces and ending of the pun file, pieces and last characters of the log file. -/
structure Output (α : Type) where
  pun : List (Pun.Piece α)
  ending : Ending α
  log : List (Log.Piece α)
  tail : Str

/-- Both files are well formed and stored under these names. -/
structure Stored [Mul α] [Num α] (files : Str → Option Str) (punName logName : Str) (o : Output α) : Prop where
  pun : PunFile o.pun o.ending
  log : LogFile o.log o.tail
  punFit : Strings.Fits punName
  logFit : Strings.Fits logName
  punPlain : PlainName (lit ".pun") punName
  logPlain : PlainName (lit ".log") logName
  punText : files punName = some (punText o.pun o.ending)
  logText : files logName = some (logText o.log o.tail)

/-- The last tables of that spin: `N` orbitals with `n` coefficients each, and their energies. -/
structure Orbitals (o : Output α) (spin : Spin) (orbs : List (Orbital α)) (n : Int) (es : List EnergyLine) : Prop where
  table : lastTable spin o.pun o.ending = some orbs
  size : ∀ x ∈ orbs, (x.coefs.length : Int) = n
  energies : lastEnergies spin o.log = some es

/-- The coefficient of basis function `j` in orbital `i` (both from 1). -/
def coefOf [Zero α] (orbs : List (Orbital α)) (i j : Int) : α := ((orbs.map Orbital.coefs).getD (i - 1).toNat []).getD (j - 1).toNat 0

/-- Entry (i, j) of the overlap matrix whose lower triangle is printed. -/
def overlapOf (S : Nat → Nat → α) (i j : Int) : α := if j ≤ i then S i.toNat j.toNat else S j.toNat i.toNat

/-- Energy number `m` (from 1). -/
def energyOf [Num α] [Zero α] (es : List EnergyLine) (m : Int) : α := ((energies es).map Num.atof).getD (m - 1).toNat 0

/-- The tables of populations agree about the atoms and their functions, and no atom has two functions with the same label: the
atoms have these numbers of basis functions. -/
def BasisCounts (o : Output α) (counts : List Int) : Prop :=
  ∃ atoms ∈ populations o.log, counts = atoms.map (fun a => (a.fns.length : Int)) ∧
    (∀ as ∈ populations o.log, as.map (fun a => (a.elem, a.fns.map (·.label))) = atoms.map (fun a => (a.elem, a.fns.map (·.label)))) ∧
    ∀ a ∈ atoms, (a.fns.map (·.label)).Nodup

/-- Two positions that look the same when printed. -/
def Alike {β : Type} (tos : α → β) (a b : α × α × α) : Prop := tos a.1 = tos b.1 ∧ tos a.2.1 = tos b.2.1 ∧ tos a.2.2 = tos b.2.2

/-- A file lists the atoms found at the positions `ref` in another order: at its place `k` is atom number `order[k]` of `ref`
(numbers from 1). No two positions look the same when printed. -/
structure Reordered {β : Type} (tos : α → β) (order : List Int) (ref rows : List (α × α × α)) : Prop where
  perm : order.Perm (irange 1 ref.length)
  length : rows.length = ref.length
  alike : ∀ (k : Nat) a x y, order[k]? = some a → rows[k]? = some x → ref[(a - 1).toNat]? = some y → Alike tos y x
  distinct : rows.Pairwise (fun x y => ¬ Alike tos x y)

/-- `g` has the columns of `f`, but in the order that results from listing the atoms in the order `order`. -/
def ColumnsAs (basis order : List Int) (f g : Int → Int → α) : Prop :=
  ∀ i (q : Nat) c, (QC.colsOf basis order)[q]? = some c → g i (q + 1) = f i c

/-- The same for rows and columns. -/
def BothAs (basis order : List Int) (f g : Int → Int → α) : Prop :=
  ∀ (p q : Nat) r c, (QC.colsOf basis order)[p]? = some r → (QC.colsOf basis order)[q]? = some c → g (p + 1) (q + 1) = f r c

/-- The coupling of an orbital of monomer 1, with coefficients `u` (`n1` of them), and one of monomer 2, with coefficients `v`, in a
dimer with `M` orbitals and `n` basis functions, with coefficients `C`, overlaps `s` and energies `es`. -/
noncomputable def jobCoupling [Field α] [Num α] (cp : Bool) (u v : Int → α) (n1 : Int) (M n : Int) (C s : Int → Int → α)
    (es : List EnergyLine) : α :=
  QC.coupling M (QC.proj n n (QC.zetaA cp n1 u) s C) (QC.proj n n (QC.zetaB cp n1 v) s C) (energyOf es)

end Verif.Job
