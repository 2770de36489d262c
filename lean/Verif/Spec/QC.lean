import Verif.Res
/-
Specification vocabulary for C24-C31: which columns belong to an atom, and the basis-function permutation a list of
matched atoms asks for.
-/
namespace Verif.QC

/-- The (1-based) columns of atom number `k` when atom `i` owns `basis[i-1]` consecutive columns. -/
def atomCols (basis : List Int) (k : Int) : List Int :=
  irange ((basis.take (k - 1).toNat).sum + 1) ((basis.take k.toNat).sum)

/-- The columns of the atoms named by `atoms`, in this order. -/
def colsOf (basis : List Int) (atoms : List Int) : List Int := atoms.flatMap (atomCols basis)

/-- `atoms` names existing atoms (numbers between 1 and `n`), none twice. -/
def InjectiveMatch (n : Nat) (atoms : List Int) : Prop := atoms.Nodup ∧ ∀ t ∈ atoms, 1 ≤ t ∧ t ≤ n

instance (n : Nat) (atoms : List Int) : Decidable (InjectiveMatch n atoms) := by unfold InjectiveMatch; infer_instance

example : atomCols [2, 1, 3] 3 = [4, 5, 6] := by decide
example : colsOf [2, 1, 3] [3, 1, 2] = [4, 5, 6, 1, 2, 3] := by decide

/-- Basis-function counts of a dimer listing atom `order[k-1]` of the aligned dimer at its position `k`. -/
def reorderedBasis (basis order : List Int) : List Int := order.map (fun a => basis.getD (a - 1).toNat 0)

/-- `order` lists every atom `1..n` once, and the atom wanted at position `i + 1` is found at position `inv[i]` of it. -/
def Undoes (n : Nat) (order inv : List Int) : Prop :=
  order.Perm (irange 1 n) ∧ inv.length = n ∧
    ∀ (i : Nat) (t : Int), inv[i]? = some t → 1 ≤ t ∧ order[(t - 1).toNat]? = some ((i : Int) + 1)

example : reorderedBasis [2, 1, 3] [3, 1, 2] = [3, 2, 1] := by decide

end Verif.QC
