import Verif.Spec.Crlf
import Verif.Props.LogLines
/-
Lines of a text with line ends of two characters.
-/
namespace Verif.Crlf
open Readers Log
open LogLines (words beyond)
open Pun (rowLine NoLine)

/-- A line with or without a carriage return at its end. -/
def Cr (l l' : Str) : Prop := l' = l ∨ l' = l ++ ['\r']

theorem crlf_cons (c : Char) (t : Str) : crlf (c :: t) = if c = '\n' then '\r' :: '\n' :: crlf t else c :: crlf t := by
  unfold crlf
  rw [List.flatMap_cons]
  split <;> rfl

/-- All lines but the last get a carriage return. -/
def crLines : List Str → List Str
  | [] => []
  | [l] => [l]
  | l :: ls => (l ++ ['\r']) :: crLines ls

theorem textLines_crlf (t : Str) : textLines (crlf t) = crLines (textLines t) := by
  induction t with
  | nil => rfl
  | cons c t ih =>
    rw [crlf_cons]
    have hne := textLines_ne t
    by_cases hc : c = '\n'
    · rw [if_pos hc]
      conv => lhs; unfold textLines
      rw [if_neg (by decide)]
      conv => lhs; unfold textLines
      rw [if_pos rfl, ih]
      conv => rhs; unfold textLines
      rw [if_pos hc]
      cases h : textLines t with
      | nil => exact absurd h hne
      | cons a as => rfl
    · rw [if_neg hc]
      conv => lhs; unfold textLines
      rw [if_neg hc, ih]
      conv => rhs; unfold textLines
      rw [if_neg hc]
      cases h : textLines t with
      | nil => exact absurd h hne
      | cons a as => cases as <;> rfl

theorem crLines_length (ls : List Str) : (crLines ls).length = ls.length := by
  induction ls with
  | nil => rfl
  | cons a as ih =>
    cases as with
    | nil => rfl
    | cons b bs => simp only [crLines, List.length_cons] at ih ⊢; omega

theorem crLines_get (ls : List Str) (j : Nat) : (crLines ls)[j]? = (ls[j]?).map (fun l => if j + 1 < ls.length then l ++ ['\r'] else l) := by
  induction ls generalizing j with
  | nil => simp [crLines]
  | cons a as ih =>
    cases as with
    | nil => cases j <;> simp [crLines]
    | cons b bs =>
      cases j with
      | zero => simp [crLines]
      | succ j =>
        rw [show crLines (a :: b :: bs) = (a ++ ['\r']) :: crLines (b :: bs) from rfl, List.getElem?_cons_succ, ih, List.getElem?_cons_succ]
        simp only [List.length_cons, Nat.add_lt_add_iff_right]

theorem crlf_length (t : Str) : (textLines (crlf t)).length = (textLines t).length := by rw [textLines_crlf, crLines_length]

theorem lineAt_crlf (t : Str) (j : Nat) : lineAt (crlf t) j = if j + 1 < (textLines t).length then lineAt t j ++ ['\r'] else lineAt t j := by
  by_cases h : j + 1 < (textLines t).length
  · rw [if_pos h]
    unfold lineAt
    rw [textLines_crlf, List.getD_eq_getElem?_getD, crLines_get, List.getElem?_eq_getElem (by omega), List.getD_eq_getElem?_getD,
      List.getElem?_eq_getElem (by omega)]
    simp only [if_pos h]
    rfl
  · rw [if_neg h, lineAt_over (by rw [crlf_length]; omega), lineAt_over (by omega), textLines_crlf, List.getLastD_eq_getLast?, List.getLastD_eq_getLast?,
      List.getLast?_eq_getElem?, List.getLast?_eq_getElem?, crLines_get, crLines_length]
    have hn : ¬ (textLines t).length - 1 + 1 < (textLines t).length := by omega
    simp only [hn, if_false]
    simp

theorem lineAt_cr (t : Str) (j : Nat) : Cr (lineAt t j) (lineAt (crlf t) j) := by
  rw [lineAt_crlf]
  split
  · exact .inr rfl
  · exact .inl rfl

theorem rowLine_cr (t : Str) (i j : Nat) : Cr (rowLine t i j) (rowLine (crlf t) i j) := by
  unfold rowLine
  rw [crlf_length]
  split
  · exact lineAt_cr t _
  · exact .inl rfl

theorem noLine_crlf (t : Str) (i : Nat) : NoLine (crlf t) i ↔ NoLine t i := by
  unfold NoLine
  rw [crlf_length, lineAt_crlf]
  constructor
  · rintro (h | ⟨h, h'⟩)
    · exact .inl h
    · exact .inr ⟨h, by rwa [if_neg (by omega)] at h'⟩
  · rintro (h | ⟨h, h'⟩)
    · exact .inl h
    · exact .inr ⟨h, by rwa [if_neg (by omega)]⟩

theorem contains_cr {l l' : Str} (h : Cr l l') {p : Str} (hp : '\r' ∉ p) (hne : p ≠ []) : Contains l' p ↔ Contains l p := by
  rcases h with rfl | rfl
  · exact Iff.rfl
  · constructor
    · rintro ⟨x, y, e⟩
      rcases List.eq_nil_or_concat y with rfl | ⟨y, c, rfl⟩
      · exfalso
        obtain ⟨q, c, rfl⟩ := (List.eq_nil_or_concat p).resolve_left hne
        rw [List.append_nil, List.concat_eq_append, ← List.append_assoc] at e
        have := (List.append_inj' e rfl).2
        simp at this
        subst this
        simp at hp
      · rw [List.concat_eq_append, ← List.append_assoc] at e
        exact ⟨x, y, (List.append_inj' e rfl).1⟩
    · rintro ⟨x, y, rfl⟩
      exact ⟨x, y ++ ['\r'], by simp⟩

theorem words_cr {l l' : Str} (h : Cr l l') : words l' = words l := by
  rcases h with rfl | rfl
  · rfl
  · induction l with
    | nil => rfl
    | cons c s ih =>
      rw [List.cons_append]
      conv => lhs; unfold words
      conv => rhs; unfold words
      rw [ih]
      have hh : ((s ++ ['\r']).head?.all White) = (s.head?.all White) := by
        cases s <;> simp [White]
      rw [hh]

theorem beyond_cr {k : Nat} {l : Str} (h : k ≤ (words l).length) : ∃ ws, beyond k (l ++ ['\r']) = ws ++ [[]] := by
  unfold beyond
  rw [words_cr (.inr rfl), if_neg (by omega)]
  exact ⟨(words l).drop k, by simp [White]⟩

end Verif.Crlf
