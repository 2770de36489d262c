import Verif.MatrixOps
import Mathlib.Algebra.BigOperators.Ring.Finset
import Mathlib.Algebra.BigOperators.Group.Finset.Sigma
import Mathlib.Data.Int.Interval
/-
The accumulation order of operator* against finite sums (exact arithmetic).
-/
namespace Verif.Mat

theorem irange_toFinset (n : Int) : (irange 1 n).toFinset = Finset.Icc 1 n := by
  ext x; simp [mem_irange]

theorem seqSum_eq_sum {α : Type} [AddCommMonoid α] (a : Int → α) (n : Int) :
    seqSum a n = ∑ k ∈ Finset.Icc 1 n, a k := by
  rw [← irange_toFinset, List.sum_toFinset _ (nodup_irange 1 n)]
  unfold seqSum
  have : ∀ (L : List Int) (z : α), L.foldl (fun s k => s + a k) z = z + (L.map a).sum := by
    intro L
    induction L with
    | nil => intro z; simp
    | cons x L ih => intro z; simp [ih, add_assoc]
  rw [this, zero_add]

end Verif.Mat
