import Verif.Matrix
/-
Specification vocabulary for the matrix properties: what "well formed" means, independent of the proofs.
-/
namespace Verif.Mat
variable {α : Type}

/-- The buffer has exactly one initialised cell per coordinate. -/
structure Init (m : Mat α) : Prop where
  rows : 0 ≤ m.rows
  cols : 0 ≤ m.cols
  shel : 0 ≤ m.shel
  size : (m.elem.length : Int) = m.rows * m.cols * m.shel
  full : ∀ x ∈ m.elem, x.isSome

/-- A well-formed non-degenerate matrix: what every constructor call with positive dimensions returns. -/
structure WF (m : Mat α) : Prop extends Init m where
  rows1 : 1 ≤ m.rows
  cols1 : 1 ≤ m.cols
  shel1 : 1 ≤ m.shel

/-- Two matrices of the same dimensions that no `get_elem` call can tell apart. -/
def SameElems (a b : Mat α) : Prop :=
  a.rows = b.rows ∧ a.cols = b.cols ∧ a.shel = b.shel ∧ ∀ i j k, a.getElem3 i j k = b.getElem3 i j k

instance (m : Mat α) : Decidable (Init m) :=
  if h : 0 ≤ m.rows ∧ 0 ≤ m.cols ∧ 0 ≤ m.shel ∧ (m.elem.length : Int) = m.rows * m.cols * m.shel ∧
      ∀ x ∈ m.elem, x.isSome then
    isTrue ⟨h.1, h.2.1, h.2.2.1, h.2.2.2.1, h.2.2.2.2⟩
  else isFalse fun ⟨a, b, c, d, e⟩ => h ⟨a, b, c, d, e⟩

instance (m : Mat α) : Decidable (WF m) :=
  if h : Init m ∧ 1 ≤ m.rows ∧ 1 ≤ m.cols ∧ 1 ≤ m.shel then
    isTrue ⟨h.1, h.2.1, h.2.2.1, h.2.2.2⟩
  else isFalse fun ⟨a, b, c, d⟩ => h ⟨a, b, c, d⟩

end Verif.Mat
