import Verif.Spec.Energies
import Verif.LogLemmas
/-
Property C114: the items of an energy line, for every line.
-/
namespace Verif.Readers
open Strings

theorem cutMinus_none {w : Str} (h : '-' ∉ w) : cutMinus w = [w] := by
  induction w with
  | nil => rfl
  | cons c w ih =>
    unfold cutMinus
    rw [ih (fun hm => h (by simp [hm]))]
    have : w.head? ≠ some '-' := by
      intro e
      cases w with
      | nil => cases e
      | cons d w => simp at e; exact h (by simp [e])
    simp only
    rw [if_neg this]

theorem cutMinus_minus (b : Str) : ∃ p ps, cutMinus ('-' :: b) = ('-' :: p) :: ps := by
  unfold cutMinus
  split
  · exact ⟨_, _, rfl⟩
  · split
    · exact ⟨_, _, rfl⟩
    · exact ⟨_, _, rfl⟩

theorem cutMinus_append {a : Str} (h : '-' ∉ a) (ha : a ≠ []) (b : Str) : cutMinus (a ++ '-' :: b) = a :: cutMinus ('-' :: b) := by
  induction a with
  | nil => exact absurd rfl ha
  | cons c a ih =>
    have hc : c ≠ '-' := fun e => h (by simp [e])
    by_cases h0 : a = []
    · subst h0
      obtain ⟨p, ps, e⟩ := cutMinus_minus b
      show cutMinus (c :: ('-' :: b)) = _
      rw [cutMinus, e]
      rfl
    · rw [List.cons_append, cutMinus, ih (fun hm => h (by simp [hm])) h0]
      have : a.head? ≠ some '-' := by
        intro e
        cases a with
        | nil => cases e
        | cons d a => simp at e; exact h (by simp [e])
      simp only
      rw [if_neg this]

theorem cutMinus_cons {b : Str} (h : '-' ∉ b) (t : Str) : cutMinus ('-' :: (b ++ '-' :: t)) = ('-' :: b) :: cutMinus ('-' :: t) := by
  by_cases h0 : b = []
  · subst h0
    obtain ⟨p, ps, e⟩ := cutMinus_minus t
    show cutMinus ('-' :: ('-' :: t)) = _
    rw [cutMinus, e]
    rfl
  · rw [cutMinus, cutMinus_append h h0]
    have : b.head? ≠ some '-' := by
      intro e
      cases b with
      | nil => cases e
      | cons d a => simp at e; exact h (by simp [e])
    simp only
    rw [if_neg this]

theorem first_minus {w : Str} (h : '-' ∈ w) : ∃ a b, w = a ++ '-' :: b ∧ '-' ∉ a := by
  induction w with
  | nil => cases h
  | cons c w ih =>
    by_cases hc : c = '-'
    · exact ⟨[], w, by simp [hc], by simp⟩
    · have : '-' ∈ w := by
        rcases List.mem_cons.1 h with h | h
        · exact absurd h.symm hc
        · exact h
      obtain ⟨a, b, e, ha⟩ := ih this
      exact ⟨c :: a, b, by simp [e], by simp [ha]; exact fun e => hc e.symm⟩

theorem splitItemLoop_exact (n : Nat) (w : Str) (hn : w.length < n) (hw : '-' ∈ w) (items2 : List Str) :
    splitItemLoop n w (find (lit "-") w) items2 = .ok (items2 ++ cutMinus w) := by
  induction n generalizing w items2 with
  | zero => omega
  | succ n ih =>
    have fin : ∀ it, 0 < n → splitItemLoop n [] (find (lit "-") []) it = .ok it := by
      intro it hpos
      obtain ⟨k, rfl⟩ : ∃ k, n = k + 1 := ⟨n - 1, by omega⟩
      rw [show find (lit "-") [] = none from rfl, splitItemLoop]
    obtain ⟨a, b, rfl, ha⟩ := first_minus hw
    rw [show find (lit "-") (a ++ '-' :: b) = some a.length from find_char '-' a b ha]
    rw [splitItemLoop, substr_ok (by simp)]
    simp only [Res.ok_bind]
    by_cases h0 : a = []
    · subst h0
      simp only [List.length_nil, if_true, List.nil_append, List.drop_succ_cons, List.drop_zero]
      by_cases hb : '-' ∈ b
      · obtain ⟨b1, b2, rfl, hb1⟩ := first_minus hb
        rw [show find (lit "-") (b1 ++ '-' :: b2) = some b1.length from find_char '-' b1 b2 hb1]
        simp only
        rw [substr_ok (by simp)]
        simp only [Res.ok_bind, List.drop_left]
        rw [ih ('-' :: b2) (by simp at hn ⊢; omega) (by simp), cutMinus_cons hb1]
        simp
      · rw [show find (lit "-") b = none from find_char_none '-' b hb]
        simp only [List.length_cons]
        rw [List.drop_of_length_le (by omega), fin _ (by simp at hn; omega), cutMinus_none' hb]
    · have hpos : 0 < a.length := List.length_pos_of_ne_nil h0
      rw [if_neg (by omega)]
      have d1 : (a ++ '-' :: b).drop a.length = '-' :: b := List.drop_left
      rw [d1, ih ('-' :: b) (by simp at hn ⊢; omega) (by simp), cutMinus_append ha h0]
      simp
where
  cutMinus_none' {b : Str} (h : '-' ∉ b) : cutMinus ('-' :: b) = [('-' :: b)] := by
    rw [cutMinus, cutMinus_none h]
    have : b.head? ≠ some '-' := by
      intro e
      cases b with
      | nil => cases e
      | cons d a => simp at e; exact h (by simp [e])
    simp only
    rw [if_neg this]

theorem splitItems_exact (items : List Str) (inc : Nat) (items2 : List Str) :
    splitItems inc items items2 = .ok (items2 ++ items.take (4 - inc) ++ (items.drop (4 - inc)).flatMap cutMinus) := by
  induction items generalizing inc items2 with
  | nil => rw [splitItems]; simp
  | cons w items ih =>
    rw [splitItems]
    by_cases hi : inc < 4
    · rw [if_pos hi]
      simp only [Res.ok_bind]
      rw [ih, show 4 - inc = (4 - (inc + 1)) + 1 by omega]
      simp
    · rw [if_neg hi]
      by_cases hw : '-' ∈ w
      · have key := splitItemLoop_exact (w.length + 1) w (by omega) hw items2
        obtain ⟨a, b, rfl, ha⟩ := first_minus hw
        rw [show find (lit "-") (a ++ '-' :: b) = some a.length from find_char '-' a b ha] at key ⊢
        simp only
        rw [key]
        simp only [Res.ok_bind]
        rw [ih, show 4 - inc = 0 by omega, show 4 - (inc + 1) = 0 by omega]
        simp
      · rw [show find (lit "-") w = none from find_char_none '-' w hw]
        simp only [Res.ok_bind]
        rw [ih, show 4 - inc = 0 by omega, show 4 - (inc + 1) = 0 by omega]
        simp [cutMinus_none hw]

/-- C114: the items of any line. A line of exactly nine words is its words; in any other, the words after the fourth are cut before every minus
sign. -/
theorem C114_items (line : Str) (ws : List Str) (h : Layout line ws) :
    splitStEnergies line = .ok (if ws.length = 9 then ws else ws.take 4 ++ (ws.drop 4).flatMap cutMinus) := by
  unfold splitStEnergies
  rw [h.split]
  simp only
  split
  · rfl
  · rw [splitItems_exact]; simp

/-- C114: cutting loses and adds nothing: the pieces joined are the word, no piece is empty or has a minus sign after its first character, and
each piece but the first begins with one. These determine the pieces. -/
theorem C114_pieces (w : Str) (hw : w ≠ []) (ps : List Str) :
    ps = cutMinus w ↔ ps.flatten = w ∧ (∀ p ∈ ps, p ≠ [] ∧ '-' ∉ p.tail) ∧ ∀ p ∈ ps.tail, p.head? = some '-' := by
  have fwd : ∀ n (w : Str), w.length ≤ n → w ≠ [] → (cutMinus w).flatten = w ∧ (∀ p ∈ cutMinus w, p ≠ [] ∧ '-' ∉ p.tail) ∧
      ∀ p ∈ (cutMinus w).tail, p.head? = some '-' := by
    intro n
    induction n with
    | zero => intro w h h0; exact absurd (List.length_eq_zero_iff.1 (by omega)) h0
    | succ n ih =>
      intro w hl h0
      by_cases hm : '-' ∈ w.tail
      · obtain ⟨c, w, rfl⟩ := List.exists_cons_of_ne_nil h0
        simp only [List.tail_cons] at hm
        obtain ⟨a, b, rfl, ha⟩ := first_minus hm
        have hcut : cutMinus (c :: (a ++ '-' :: b)) = (c :: a) :: cutMinus ('-' :: b) := by
          by_cases hc : c = '-'
          · subst hc; exact cutMinus_cons ha b
          · exact cutMinus_append (a := c :: a) (by simp [ha]; exact fun e => hc e.symm) (by simp) b
        obtain ⟨i1, i2, i3⟩ := ih ('-' :: b) (by simp at hl ⊢; omega) (by simp)
        rw [hcut]
        refine ⟨by simp [i1], ?_, ?_⟩
        · intro p hp
          rcases List.mem_cons.1 hp with rfl | hp
          · exact ⟨by simp, ha⟩
          · exact i2 p hp
        · intro p hp
          simp only [List.tail_cons] at hp
          obtain ⟨q, qs, e⟩ := cutMinus_minus b
          rw [e] at hp i3
          rcases List.mem_cons.1 hp with rfl | hp
          · rfl
          · exact i3 p hp
      · obtain ⟨c, w, rfl⟩ := List.exists_cons_of_ne_nil h0
        simp only [List.tail_cons] at hm
        have hcut : cutMinus (c :: w) = [c :: w] := by
          by_cases hc : c = '-'
          · subst hc; exact splitItemLoop_exact.cutMinus_none' hm
          · exact cutMinus_none (by simp [hm]; exact fun e => hc e.symm)
        rw [hcut]
        exact ⟨by simp, by simp; exact hm, by simp⟩
  constructor
  · rintro rfl
    exact fwd w.length w (Nat.le_refl _) hw
  · rintro ⟨h1, h2, h3⟩
    subst h1
    clear fwd
    induction ps with
    | nil => exact absurd rfl hw
    | cons p ps ih =>
      obtain ⟨hp, hp'⟩ := h2 p (by simp)
      obtain ⟨c, a, rfl⟩ := List.exists_cons_of_ne_nil hp
      simp only [List.tail_cons] at hp'
      cases ps with
      | nil =>
        simp only [List.flatten_cons, List.flatten_nil, List.append_nil]
        by_cases hc : c = '-'
        · subst hc; exact (splitItemLoop_exact.cutMinus_none' hp').symm
        · exact (cutMinus_none (by simp [hp']; exact fun e => hc e.symm)).symm
      | cons q qs =>
        have hq := h3 q (by simp)
        have e := ih (fun x hx => h2 x (List.mem_cons_of_mem _ hx)) (fun x hx => h3 x (List.mem_cons_of_mem _ hx))
          (by simp; exact fun h => absurd h (h2 q (by simp)).1)
        obtain ⟨d, q', rfl⟩ := List.exists_cons_of_ne_nil (h2 q (by simp)).1
        simp only [List.head?_cons, Option.some.injEq] at hq
        subst hq
        have e2 : ((c :: a) :: ('-' :: q') :: qs).flatten = c :: (a ++ '-' :: (q' ++ qs.flatten)) := by simp
        have e3 : (('-' :: q') :: qs).flatten = '-' :: (q' ++ qs.flatten) := by simp
        rw [e2, e, e3]
        by_cases hc : c = '-'
        · subst hc; rw [cutMinus_cons hp']
        · rw [show c :: (a ++ '-' :: (q' ++ qs.flatten)) = (c :: a) ++ '-' :: (q' ++ qs.flatten) from rfl,
            cutMinus_append (by simp [hp']; exact fun e => hc e.symm) (by simp)]

/-- A line with joined energies, and one of nine words in which they stay joined. -/
example : splitStEnergies (lit " Alpha  occ. eigenvalues -- -101.1-99.2-1.3 0.5") =
    .ok [(lit "Alpha"), (lit "occ."), (lit "eigenvalues"), (lit "--"), (lit "-101.1"), (lit "-99.2"), (lit "-1.3"), (lit "0.5")] :=
  C114_items _ [(lit "Alpha"), (lit "occ."), (lit "eigenvalues"), (lit "--"), (lit "-101.1-99.2-1.3"), (lit "0.5")] (layout_splitSt _)
example : splitStEnergies (lit "a b c d 1-1 2 3 4 5") =
    .ok [(lit "a"), (lit "b"), (lit "c"), (lit "d"), (lit "1-1"), (lit "2"), (lit "3"), (lit "4"), (lit "5")] :=
  C114_items _ [(lit "a"), (lit "b"), (lit "c"), (lit "d"), (lit "1-1"), (lit "2"), (lit "3"), (lit "4"), (lit "5")] (layout_splitSt _)

end Verif.Readers
