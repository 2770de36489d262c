import Verif.Spec.QC
/-
Specification vocabulary for C107: which lists of requests make the computation of the swap order run forever.

A request `(p, t)` asks for the block now at position `t` to be put at position `p`. Requests are served in order.
-/
namespace Verif.QC

/-- Following the requests in `served`: the block asked for at `t` is found at `u`. (Once the request `(t, s)` is served,
what was at `t` is where `s` was.) -/
inductive Leads (served : List (Int × Int)) : Int → Int → Prop
  | here (t : Int) : Leads served t t
  | step {t s u : Int} : (t, s) ∈ served → Leads served s u → Leads served t u

/-- Some request `p` of `first` finds its block already in place (it closes a cycle of requests), and a request served
later, in `first` or in `second`, asks for the same block again. -/
def Clash (first second : List (Int × Int)) : Prop :=
  ∃ served p rest q, first = served ++ p :: rest ∧ q ∈ rest ++ second ∧ Leads served p.2 p.1 ∧ Leads served q.2 p.1

/-- The requests of a list of matches wanted at the positions `k + 1, k + 2, …`. -/
def requests (k : Int) (matches_ : List Int) : List (Int × Int) := matches_.zipIdx.map (fun e => (k + 1 + e.2, e.1))

example : requests 2 [5, 1] = [(3, 5), (4, 1)] := by decide
example : Clash [(1, 2), (2, 1), (3, 1)] [] :=
  ⟨[(1, 2)], (2, 1), [(3, 1)], (3, 1), rfl, by simp, .step (s := 2) (by simp) (.here 2), .step (s := 2) (by simp) (.here 2)⟩

end Verif.QC
