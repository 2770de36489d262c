import Verif.Matrix
/-
Specification vocabulary for the range of `int`.
-/
namespace Verif.Ints

/-- The matrix has at least one element, and fewer than 2^31 - 1. -/
def IntSized {α : Type} (m : Mat α) : Prop := 1 ≤ m.rows ∧ 1 ≤ m.cols ∧ 1 ≤ m.shel ∧ m.rows * m.cols * m.shel < 2147483647

/-- A matrix of one shelf with at most 46340 rows and as many columns. -/
def Within {α : Type} (m : Mat α) : Prop := 1 ≤ m.rows ∧ m.rows ≤ 46340 ∧ 1 ≤ m.cols ∧ m.cols ≤ 46340 ∧ m.shel = 1

end Verif.Ints
