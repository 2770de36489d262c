import Verif.Spec.Schedule
import Verif.Spec.Transfer
/-
Specification vocabulary for C121: what unscrambling does to a matrix, for every list of matches and every list of block sizes.
-/
namespace Verif

/-- The same outcome: the same failure, or results that are related. -/
def Res.Like {β γ : Type} (R : β → γ → Prop) : Res β → Res γ → Prop
  | .ok b, .ok c => R b c
  | .throw e, .throw e' => e = e'
  | .exit n, .exit n' => n = n'
  | .ub, .ub => True
  | .diverge, .diverge => True
  | _, _ => False

namespace QC
variable {α : Type}

/-- Where that which is asked for at place `t` is to be found after these exchanges of places were made, each for a request at the first
of its places. -/
def foundAt (made : List (Int × Int)) (t : Int) : Int := made.foldl (fun t c => if t = c.1 then c.2 else t) t

/-- The exchanges made for the requests (place, what is asked for), one after another, when `made` were made before. -/
def exchanges (made : List (Int × Int)) : List (Int × Int) → List (Int × Int)
  | [] => []
  | q :: L => (q.1, foundAt made q.2) :: exchanges (made ++ [(q.1, foundAt made q.2)]) L

example : exchanges [] [(1, 3), (2, 1), (3, 2)] = [(1, 3), (2, 3), (3, 3)] := by decide

/-- Which block is at place `k` after these exchanges. -/
def blockAt (made : List (Int × Int)) (k : Int) : Int :=
  made.foldr (fun c k => if k = c.1 then c.2 else if k = c.2 then c.1 else k) k

example : (irange 1 3).map (blockAt [(1, 3), (2, 3), (3, 3)]) = [3, 1, 2] := by decide

/-- Some exchange concerns a place that is none of `n`. -/
def Outside (n : Nat) (made : List (Int × Int)) : Prop :=
  ∃ c ∈ made, c.1 ≠ c.2 ∧ ¬ ((1 ≤ c.1 ∧ c.1 ≤ n) ∧ (1 ≤ c.2 ∧ c.2 ≤ n))

instance (n : Nat) (made : List (Int × Int)) : Decidable (Outside n made) := by unfold Outside; infer_instance

open Classical in
/-- The order in which `n` blocks are found after the requests of `first` and then those of `second`. -/
noncomputable def newOrder (n : Nat) (first second : List (Int × Int)) : Res (List Int) :=
  if Clash first second then .diverge
  else if Outside n (exchanges [] (first ++ second)) then .ub
  else .ok ((irange 1 n).map (blockAt (exchanges [] (first ++ second))))

/-- The columns of the blocks in this order; the columns after the last block are gone, there are zeros instead. -/
def colsTo [Zero α] (basis order : List Int) (f : Int → Int → α) (i j : Int) : α :=
  match (colsOf basis order)[(j - 1).toNat]? with
  | some c => f i c
  | none => 0

/-- The same for the rows. -/
def rowsTo [Zero α] (basis order : List Int) (f : Int → Int → α) (i j : Int) : α := colsTo basis order (fun j i => f i j) j i

/-- What becomes of the columns of a matrix with `N` columns when the requests are served: the process ends if the blocks do not fit. -/
noncomputable def servedCols [Zero α] (basis : List Int) (first second : List (Int × Int)) (N : Int) (f : Int → Int → α) : Res (Int → Int → α) :=
  if (∃ b ∈ basis, b < 1) ∨ N < basis.sum then .exit 1
  else do
    let order ← newOrder basis.length first second
    .ok (colsTo basis order f)

/-- What becomes of columns and rows when there are `M` rows. -/
noncomputable def servedBoth [Zero α] (basis : List Int) (first second : List (Int × Int)) (M N : Int) (f : Int → Int → α) : Res (Int → Int → α) := do
  let g ← servedCols basis first second N f
  if M < basis.sum then .exit 1
  else do
    let order ← newOrder basis.length first second
    .ok (rowsTo basis order g)

end QC
end Verif
