import Verif.Spec.CutOff
import Verif.Props.LogLines
/-
Lines of a text that is cut off.
-/
namespace Verif.CutOff
open Readers Log
open Pun (rowLine NoLine)

theorem lines_prefix (t' rest : Str) : ∃ m p, m < (textLines (t' ++ rest)).length ∧ textLines t' = (textLines (t' ++ rest)).take m ++ [p] ∧
    ∃ l, (textLines (t' ++ rest))[m]? = some l ∧ p <+: l := by
  induction t' with
  | nil =>
    have hne := textLines_ne rest
    refine ⟨0, [], List.length_pos_iff.2 hne, rfl, ?_⟩
    obtain ⟨l, ls, h⟩ := List.exists_cons_of_ne_nil hne
    exact ⟨l, by rw [List.nil_append, h]; rfl, List.nil_prefix⟩
  | cons c t ih =>
    obtain ⟨m, p, h1, h2, l, h3, h4⟩ := ih
    rw [List.cons_append]
    by_cases hc : c = '\n'
    · have e : ∀ s, textLines (c :: s) = [] :: textLines s := by
        intro s
        conv => lhs; unfold textLines
        rw [if_pos hc]
      refine ⟨m + 1, p, ?_, ?_, l, ?_, h4⟩
      · rw [e, List.length_cons]; omega
      · rw [e, e, h2]; rfl
      · rw [e]; exact h3
    · have e : ∀ s a as, textLines s = a :: as → textLines (c :: s) = (c :: a) :: as := fun s a as h => by
        conv => lhs; unfold textLines
        rw [if_neg hc, h]
      obtain ⟨a, as, ha⟩ := List.exists_cons_of_ne_nil (textLines_ne (t ++ rest))
      rw [ha] at h1 h2 h3
      cases m with
      | zero =>
        refine ⟨0, c :: p, by rw [e _ _ _ ha]; simp, by rw [e t p [] h2]; rfl, c :: a, by rw [e _ _ _ ha]; rfl, ?_⟩
        cases h3
        exact List.prefix_cons_inj c |>.2 h4
      | succ m =>
        refine ⟨m + 1, p, by rw [e _ _ _ ha]; exact h1, ?_, l, by rw [e _ _ _ ha]; exact h3, h4⟩
        rw [e _ _ _ ha]
        rw [e t a (as.take m ++ [p]) h2]
        rfl

theorem lineAt_get {t : Str} {j : Nat} {l : Str} (h : (textLines t)[j]? = some l) : lineAt t j = l := by
  unfold lineAt
  rw [List.getD_eq_getElem?_getD, h]
  rfl

theorem cut_of_prefix {t t' : Str} (h : t' <+: t) : ∃ m p, CutAt t t' m p := by
  obtain ⟨rest, rfl⟩ := h
  obtain ⟨m, p, h1, h2, l, h3, h4⟩ := lines_prefix t' rest
  exact ⟨m, p, h1, h2, by rw [lineAt_get h3]; exact h4⟩

section
variable {t t' : Str} {m : Nat} {p : Str} (h : CutAt t t' m p)
include h

theorem CutAt.len : (textLines t').length = m + 1 := by
  rw [h.left, List.length_append, List.length_take, List.length_singleton]
  have := h.line
  omega

theorem CutAt.before {j : Nat} (hj : j < m) : lineAt t' j = lineAt t j := by
  have hl := h.line
  refine lineAt_get ?_
  rw [h.left, List.getElem?_append_left (by rw [List.length_take]; omega), List.getElem?_take_of_lt hj]
  unfold lineAt
  rw [List.getD_eq_getElem?_getD, List.getElem?_eq_getElem (by omega)]
  rfl

theorem CutAt.after {j : Nat} (hj : m ≤ j) : lineAt t' j = p := by
  rw [lineAt_over (by rw [h.len]; omega), h.left]
  simp

theorem CutAt.row_before {i j : Nat} (hj : i + j < m) : rowLine t' i j = rowLine t i j := by
  have hl := h.line
  unfold rowLine
  rw [h.len, if_pos (by omega), if_pos (by omega), h.before hj]

theorem CutAt.row_after {i j : Nat} (hi : i ≤ m) (hj : m ≤ i + j) : rowLine t' i j = p := by
  unfold rowLine
  rw [h.len, if_pos (by omega), h.after hj]

theorem CutAt.some_line {i : Nat} (hi : i < m) : ¬ NoLine t' i := by
  unfold NoLine
  rw [h.len]
  omega

/-- What the rest of the line contains, the line did. -/
theorem CutAt.contains {q : Str} (hq : Contains p q) : Contains (lineAt t m) q := by
  obtain ⟨s, hs⟩ := h.part
  obtain ⟨x, y, rfl⟩ := hq
  exact ⟨x, y ++ s, by rw [← hs]; simp⟩

theorem CutAt.noLine : NoLine t' m ↔ p = [] := by
  unfold NoLine
  rw [h.len, h.after (Nat.le_refl _)]
  constructor
  · rintro (x | x)
    · omega
    · exact x.2
  · exact fun x => .inr ⟨rfl, x⟩

theorem CutAt.none_after : NoLine t' (m + 1) := .inl (by rw [h.len])

end

end Verif.CutOff
