import Verif.Spec.Chars
import Verif.Strings
/-
Specification vocabulary for the string helpers.
-/
namespace Verif.Strings

/-- Every `std::string` is shorter than 2^63 characters (`max_size`). -/
def Fits (s : Str) : Prop := s.length < 2 ^ 63

/-- White space, words and their layout: what `splitSt` takes apart. -/
structure Layout (s : Str) (ts : List Str) : Prop where
  exists_pieces : ∃ (ps : List (Str × Str)) (trail : Str),
    s = ps.flatMap (fun p => p.1 ++ p.2) ++ trail ∧ ts = ps.map (·.2) ∧
    (∀ p ∈ ps, (∀ c ∈ p.1, White c = true) ∧ p.2 ≠ [] ∧ ∀ c ∈ p.2, White c = false) ∧
    (∀ p ∈ ps.tail, p.1 ≠ []) ∧ ∀ c ∈ trail, White c = true

/-- `occ` occurs in `s` at position `n`. -/
def OccursAt (occ s : Str) (n : Nat) : Prop := ∃ x y, s = x ++ occ ++ y ∧ x.length = n

end Verif.Strings
