/-
Specification for C86 (which declaration counts): the dictionary order.
-/
namespace Verif.Args

/-- `a` comes before `b` in a dictionary over letters ordered by `lt`: it is a proper beginning of `b`, or it has the smaller letter at the first place where they differ. -/
def Dict {L : Type} (lt : L → L → Prop) (a b : List L) : Prop :=
  (∃ c s, b = a ++ c :: s) ∨ ∃ p x y s t, a = p ++ x :: s ∧ b = p ++ y :: t ∧ lt x y

/-- Declarations in the order in which a `std::set<std::vector<std::string>>` keeps them: by their items, which are ordered by their characters. -/
def Earlier : List (List Char) → List (List Char) → Prop := Dict (Dict fun c d : Char => c.toNat < d.toNat)

end Verif.Args
