import Verif.ChatterShift
/-
A text says one thing only.
-/
namespace Verif.Chatter
open Readers Log CutOff
open Pun (rowLine NoLine)

variable {α : Type} [Mul α] [Num α]

section pun
open Pun (RowLines RowAt TableAt Upto Announces Known Says together Complete)
variable {t : Str}

theorem rows_agree {count : Option Nat} {i k k' : Nat} {v v' : Nat → List α} (h : RowLines t count i k v) (h' : RowLines t count i k' v') {j : Nat} (hj : j ≤ k)
    (hj' : j ≤ k') : together v j = together v' j := by
  unfold together
  refine List.flatMap_congr fun x hx => ?_
  rw [List.mem_range] at hx
  exact Res.ok.inj ((h x (by omega)).2.symm.trans (h' x (by omega)).2)

theorem row_once {count : Option Nat} {i k k' : Nat} {row row' : List α} (h : RowAt t count i k row) (h' : RowAt t count i k' row') : k = k' ∧ row = row' := by
  obtain ⟨v, h1, h2, h3⟩ := h
  obtain ⟨v', h1', h2', h3'⟩ := h'
  have hk : k = k' := by
    rcases Nat.lt_trichotomy k k' with hlt | e | hlt
    · refine absurd ?_ (h1' k hlt).1
      rw [← rows_agree h1 h1' (Nat.le_refl _) (by omega), ← h2]
      exact h3
    · exact e
    · refine absurd ?_ (h1 k' hlt).1
      rw [rows_agree h1 h1' (by omega) (Nat.le_refl _), ← h2']
      exact h3'
  subst hk
  exact ⟨rfl, by rw [h2, h2', rows_agree h1 h1' (Nat.le_refl _) (Nat.le_refl _)]⟩

theorem table_once {spin : Spin} {count : Option Nat} {i : Nat} {rows rows' : List (List α)} {e e' : Nat} (h : TableAt t spin count i rows e)
    (h' : TableAt t spin count i rows' e') : rows = rows' ∧ e = e' := by
  induction h generalizing rows' e' with
  | last h1 h2 =>
    cases h' with
    | last g1 g2 =>
      obtain ⟨rfl, rfl⟩ := row_once h1 g1
      exact ⟨rfl, rfl⟩
    | more g1 g2 g3 =>
      obtain ⟨rfl, rfl⟩ := row_once h1 g1
      exact absurd g2 h2
  | more h1 h2 h3 ih =>
    cases h' with
    | last g1 g2 =>
      obtain ⟨rfl, rfl⟩ := row_once h1 g1
      exact absurd h2 g2
    | more g1 g2 g3 =>
      obtain ⟨rfl, rfl⟩ := row_once h1 g1
      obtain ⟨rfl, rfl⟩ := ih g3
      exact ⟨rfl, rfl⟩

theorem spin_once {l : Str} {a b : Spin} (h : Announces l a) (h' : Announces l b) : a = b := by
  cases a <;> cases b
  · rfl
  · exact absurd h h'.1
  · exact absurd h' h.1
  · rfl

theorem says_once {i : Nat} {d d1 d2 : Known α} (h : Says t i d d1) (h' : Says t i d d2) : d1 = d2 := by
  induction h generalizing d2 with
  | done h1 =>
    cases h' with
    | done => rfl
    | skip g1 => exact absurd h1 g1
    | table g1 => exact absurd h1 g1
  | skip h1 h2 _ ih =>
    cases h' with
    | done g1 => exact absurd g1 h1
    | skip _ _ g3 => exact ih g3
    | table _ g2 => exact absurd g2 (h2 _)
  | table h1 h2 h3 h4 _ ih =>
    cases h' with
    | done g1 => exact absurd g1 h1
    | skip _ g2 => exact absurd h2 (g2 _)
    | table _ g2 g3 _ g5 =>
      cases spin_once h2 g2
      obtain ⟨rfl, rfl⟩ := table_once h3 g3
      exact ih g5

end pun

section log
open LogLines
variable {t : Str}

theorem coords_once {i k k' : Nat} {pos pos' : Nat → α × α × α} (h : CoordRows t i k pos) (hr : IsRuler (coordLine t i k)) (h' : CoordRows t i k' pos')
    (hr' : IsRuler (coordLine t i k')) : k = k' ∧ (List.range k).map pos = (List.range k).map pos' := by
  have hk : k = k' := by
    rcases Nat.lt_trichotomy k k' with hlt | e | hlt
    · exact absurd hr (h' k hlt).1
    · exact e
    · exact absurd hr' (h k' hlt).1
  subst hk
  refine ⟨rfl, List.map_congr_left fun j hj => ?_⟩
  rw [List.mem_range] at hj
  exact Res.ok.inj ((h j hj).2.symm.trans (h' j hj).2)

theorem energies_once {i k k' : Nat} {spin : Spin} (h : EnergyLines t spin i k) (h' : EnergyLines t spin i k') : k = k' := by
  have key : ∀ {k k' : Nat}, EnergyLines t spin i k → EnergyLines t spin i k' → ¬ k < k' := by
    intro k k' h h' hlt
    obtain ⟨a, b⟩ := h'.1 k hlt
    rcases h.2 with c | ⟨c1, c2⟩
    · exact a c
    · exact b.elim c1 c2
  have := key h h'
  have := key h' h
  omega

theorem first_once {i n n' : Nat} {vals vals' : Nat → List α} (h : FirstBlock t i n vals) (h' : FirstBlock t i n' vals') : n = n' := by
  have key : ∀ {n n' : Nat} {vals vals' : Nat → List α}, FirstBlock t i n vals → FirstBlock t i n' vals' → ¬ n < n' := by
    intro n n' vals vals' h h' hlt
    obtain ⟨-, -, z, h4, h5⟩ := h
    exact h5 (Res.ok.inj (h4.symm.trans (h'.1 n hlt)))
  have := key h h'
  have := key h' h
  omega

theorem overlap_once {i n n' : Nat} {vals vals' : Nat → Nat → List α} (h : OverlapAt t i n vals) (h' : OverlapAt t i n' vals') :
    n = n' ∧ cells n vals = cells n vals' := by
  obtain ⟨h1, h2, h3⟩ := h
  obtain ⟨-, h2', h3'⟩ := h'
  obtain rfl := first_once h2 h2'
  refine ⟨rfl, ?_⟩
  unfold cells
  refine List.flatMap_congr fun b hb => List.flatMap_congr fun q hq => ?_
  rw [List.mem_range] at hb hq
  have e : vals b (5 * b + q + 1) = vals' b (5 * b + q + 1) :=
    Res.ok.inj ((h3 b (5 * b + q + 1) hb (by omega) (by omega)).1.symm.trans (h3' b (5 * b + q + 1) hb (by omega) (by omega)).1)
  rw [e]

theorem further_once {i : Nat} {label mark : Str} {j : Nat} {ls ls' : List Str} {k k' : Nat} (h : Further α t i label mark j ls k)
    (h' : Further α t i label mark j ls' k') : ls = ls' ∧ k = k' := by
  induction h generalizing ls' k' with
  | none h1 =>
    cases h' with
    | none => exact ⟨rfl, rfl⟩
    | last g1 => exact absurd h1 g1
    | more g1 => exact absurd h1 g1
  | last h1 h2 h3 =>
    cases h' with
    | none g1 => exact absurd g1 h1
    | last => exact ⟨rfl, rfl⟩
    | more _ _ g3 => exact absurd h3 g3
  | more h1 h2 h3 _ ih =>
    cases h' with
    | none g1 => exact absurd g1 h1
    | last _ _ g3 => exact absurd g3 h3
    | more _ _ _ g4 =>
      obtain ⟨rfl, rfl⟩ := ih g4
      exact ⟨rfl, rfl⟩

theorem atom_once {i j : Nat} {elem elem' : Str} {ls ls' : List Str} {k k' : Nat} (h : AtomAt α t i j elem ls k) (h' : AtomAt α t i j elem' ls' k') :
    elem = elem' ∧ ls = ls' ∧ k = k' := by
  obtain ⟨-, h2, l, h3, h4⟩ := h
  obtain ⟨-, g2, l', g3, g4⟩ := h'
  obtain ⟨rfl, rfl⟩ := further_once h4 g4
  exact ⟨h2.trans g2.symm, h3.trans g3.symm, rfl⟩

theorem atoms_once {i a j : Nat} {fs fs' : List ((Nat × Str) × Str)} {e e' : Nat} (h : Atoms α t i a j fs e) (h' : Atoms α t i a j fs' e') :
    fs = fs' ∧ e = e' := by
  induction h generalizing fs' e' with
  | last h1 h2 =>
    cases h' with
    | last g1 g2 =>
      obtain ⟨rfl, rfl, rfl⟩ := atom_once h1 g1
      exact ⟨rfl, rfl⟩
    | more g1 g2 =>
      obtain ⟨rfl, rfl, rfl⟩ := atom_once h1 g1
      exact absurd h2 g2
  | more h1 h2 _ ih =>
    cases h' with
    | last g1 g2 =>
      obtain ⟨rfl, rfl, rfl⟩ := atom_once h1 g1
      exact absurd g2 h2
    | more g1 g2 g3 =>
      obtain ⟨rfl, rfl, rfl⟩ := atom_once h1 g1
      obtain ⟨rfl, rfl⟩ := ih g3
      exact ⟨rfl, rfl⟩

theorem log_table_once {i : Nat} {k : Kind} {f f' : Known α → Known α} {e e' : Nat} (h : Table t i k f e) (h' : Table t i k f' e') : f = f' ∧ e = e' := by
  cases h with
  | coords h1 h2 =>
    cases h' with
    | coords g1 g2 =>
      obtain ⟨rfl, hp⟩ := coords_once h1 h2 g1 g2
      rw [hp]
      exact ⟨rfl, rfl⟩
  | energies h1 h2 =>
    cases h' with
    | energies g1 g2 =>
      obtain rfl := energies_once h2 g2
      exact ⟨rfl, rfl⟩
  | overlap h1 =>
    cases h' with
    | overlap g1 =>
      obtain ⟨rfl, hc⟩ := overlap_once h1 g1
      rw [hc]
      exact ⟨rfl, rfl⟩
  | population h1 =>
    cases h' with
    | population g1 =>
      obtain ⟨rfl, rfl⟩ := atoms_once h1 g1
      exact ⟨rfl, rfl⟩

theorem kind_once {l : Str} {k k' : Kind} (h : Announces l k) (h' : Announces l k') : k = k' := by
  obtain ⟨a, b, e, h1, h2⟩ := h
  obtain ⟨a', b', e', h1', h2'⟩ := h'
  rw [e] at e'
  rcases List.append_eq_append_iff.1 e' with ⟨c, rfl, hc⟩ | ⟨c, rfl, hc⟩
  · cases c with
    | nil => exact (List.cons.inj hc).1
    | cons x xs =>
      obtain ⟨rfl, -⟩ := List.cons.inj hc
      exact absurd h1 (h2' _ (by simp))
  · cases c with
    | nil => exact (List.cons.inj hc).1.symm
    | cons x xs =>
      obtain ⟨rfl, -⟩ := List.cons.inj hc
      exact absurd h1' (h2 _ (by simp))

theorem log_says_once {i : Nat} {d d1 d2 : Known α} (h : Says t i d d1) (h' : Says t i d d2) : d1 = d2 := by
  induction h generalizing d2 with
  | done h1 =>
    cases h' with
    | done => rfl
    | skip g1 => exact absurd h1 g1
    | table g1 => exact absurd h1 g1
  | skip h1 h2 _ ih =>
    cases h' with
    | done g1 => exact absurd g1 h1
    | skip _ _ g3 => exact ih g3
    | table _ g2 => exact absurd g2 (h2 _)
  | table h1 h2 h3 _ ih =>
    cases h' with
    | done g1 => exact absurd g1 h1
    | skip _ g2 => exact absurd h2 (g2 _)
    | table _ g2 g3 g5 =>
      cases kind_once h2 g2
      obtain ⟨rfl, rfl⟩ := log_table_once h3 g3
      exact ih g5

end log

/-! ### lengths -/

theorem length_lines (t : Str) : ((textLines t).map (fun l => l.length + 1)).sum = t.length + 1 := by
  induction t with
  | nil => rfl
  | cons c t ih =>
    unfold textLines
    split
    · simp only [List.map_cons, List.sum_cons, ih, List.length_nil, List.length_cons]; omega
    · cases hl : textLines t with
      | nil => rw [hl] at ih; simp at ih
      | cons l ls =>
        rw [hl] at ih
        simp only [List.map_cons, List.sum_cons, List.length_cons] at ih ⊢
        omega

end Verif.Chatter
