import Verif.Spec.Chatter
import Verif.Props.CutOff
/-
Texts with lines added: what is before them, and what is after them.
-/
namespace Verif.Chatter
open Readers Log CutOff
open Pun (rowLine NoLine)

/-! ### before the added lines -/

/-- The first `m` lines of `t` and `t'` are the same, and each has another line. -/
structure Begins (t t' : Str) (m : Nat) : Prop where
  len : m < (textLines t).length
  len' : m < (textLines t').length
  before : ∀ {j}, j < m → lineAt t' j = lineAt t j

/-- And a table of energies that ends with line `m - 1` of `t` does in `t'`. -/
structure Keeps (t t' : Str) (m : Nat) : Prop extends Begins t t' m where
  edge : ∀ spin, NoLine t m ∨ (¬ LogLines.IsOcc spin (lineAt t m) ∧ ¬ LogLines.IsVirt spin (lineAt t m)) →
    NoLine t' m ∨ (¬ LogLines.IsOcc spin (lineAt t' m) ∧ ¬ LogLines.IsVirt spin (lineAt t' m))

theorem Begins.row_before {t t' : Str} {m : Nat} (h : Begins t t' m) {i j : Nat} (hj : i + j < m) : rowLine t' i j = rowLine t i j := by
  have hl := h.len
  have hl' := h.len'
  unfold rowLine
  rw [if_pos (by omega), if_pos (by omega), h.before hj]

theorem Begins.some_line {t t' : Str} {m : Nat} (h : Begins t t' m) {i : Nat} (hi : i < m) : ¬ NoLine t' i := by
  have hl' := h.len'
  unfold NoLine
  omega

variable {α : Type} [Mul α] [Num α]

section pun
open Pun (RowLines RowAt TableAt Upto Announces Known)
variable {t t' : Str} {m : Nat} (h : Begins t t' m)
include h

theorem keep_rowLines {count : Option Nat} {i k : Nat} {vals : Nat → List α} (hk : i + k ≤ m) (hr : RowLines t count i k vals) :
    RowLines t' count i k vals := by
  intro j hj
  rw [h.row_before (by omega)]
  exact hr j hj

theorem keep_rowAt {count : Option Nat} {i k : Nat} {row : List α} (hk : i + k < m) (hr : RowAt t count i k row) : RowAt t' count i k row := by
  obtain ⟨vals, h1, h2, h3⟩ := hr
  exact ⟨vals, keep_rowLines h (by omega) h1, h2, by rw [h.row_before hk]; exact h3⟩

theorem keep_table {spin : Spin} {count : Option Nat} {i : Nat} {rows : List (List α)} {e : Nat} (he : e ≤ m) (ht : TableAt t spin count i rows e) :
    TableAt t' spin count i rows e := by
  induction ht with
  | last h1 h2 => exact .last (keep_rowAt h (by omega) h1) (by rw [h.row_before (by omega)]; exact h2)
  | more h1 h2 h3 ih =>
    have := table_far h3
    exact .more (keep_rowAt h (by omega) h1) (by rw [h.row_before (by omega)]; exact h2) (ih he)

/-- What is read before the added lines is read as before. -/
theorem keep_upto {i j : Nat} {d d' : Known α} (hj : j ≤ m) (hu : Upto t i d j d') : Upto t' i d j d' := by
  induction hu with
  | here => exact .here
  | skip h1 h2 h3 ih =>
    have := upto_far h3
    exact .skip (h.some_line (by omega)) (by rw [h.before (by omega)]; exact h2) (ih hj)
  | table h1 h2 h3 h4 h5 ih =>
    have := upto_far h5
    have := table_far h3
    exact .table (h.some_line (by omega)) (by rw [h.before (by omega)]; exact h2) (keep_table h (by omega) h3) h4 (ih hj)

end pun

section log
open LogLines (CoordRows coordLine IsRuler numberText Counted rowItems blockLine FirstBlock OverlapAt RowFine popLine IsEnd
  Further FirstFn AtomAt Atoms EnergyLines energiesOn)
variable {t t' : Str} {m : Nat} (h : Keeps t t' m)
include h

theorem keep_coordLine {i j : Nat} (hj : i + j + 3 < m) : coordLine t' i j = coordLine t i j := by
  unfold coordLine
  exact h.row_before (by omega)

theorem keep_coordRows {i k : Nat} {pos : Nat → α × α × α} (hk : i + k + 2 < m) (hr : CoordRows t i k pos) : CoordRows t' i k pos := by
  intro j hj
  rw [keep_coordLine h (by omega)]
  exact hr j hj

theorem keep_energiesOn {i k : Nat} (hk : i + k ≤ m) : (energiesOn t' i k : List α) = energiesOn t i k := by
  unfold energiesOn
  refine List.flatMap_congr fun j hj => ?_
  rw [List.mem_range] at hj
  rw [h.before (by omega)]

theorem keep_occupiedOn {spin : Spin} {i k : Nat} (hk : i + k ≤ m) : LogLines.occupiedOn α t' spin i k = LogLines.occupiedOn α t spin i k := by
  unfold LogLines.occupiedOn
  congr 1
  refine List.map_congr_left fun j hj => ?_
  rw [List.mem_range] at hj
  rw [h.before (by omega)]

theorem keep_energyLines {spin : Spin} {i k : Nat} (hk : i + k ≤ m) (he : EnergyLines t spin i k) : EnergyLines t' spin i k := by
  refine ⟨fun j hj => ⟨h.some_line (by omega), ?_⟩, ?_⟩
  · rw [h.before (by omega)]
    exact (he.1 j hj).2
  · by_cases hkm : i + k = m
    · have := he.2
      rw [hkm] at this ⊢
      exact h.edge spin this
    · rcases he.2 with hn | hn
      · have := h.len
        unfold NoLine at hn
        omega
      · right
        rw [h.before (by omega)]
        exact hn

theorem keep_numberText {i j : Nat} (hj : i + 1 + j < m) : numberText t' i j = numberText t i j := by
  induction j with
  | zero => rfl
  | succ j ih => rw [numberText, numberText, ih (by omega), h.row_before (by omega)]

theorem keep_rowItems {i n b r : Nat} (hr : i + 1 + (blockLine n b + (r - 5 * b - 1)) < m) : rowItems t' i n b r = rowItems t i n b r := by
  unfold rowItems
  rw [h.row_before hr]

theorem keep_counted {i n : Nat} (hn : i + 1 + n < m) (hc : Counted t i n) : Counted t' i n := by
  intro j hj
  rw [keep_numberText h (by omega)]
  exact hc j hj

theorem keep_overlap {i n : Nat} {vals : Nat → Nat → List α} (he : i + 1 + blockLine n ((n + 4) / 5) ≤ m) (ho : OverlapAt t i n vals) : OverlapAt t' i n vals := by
  obtain ⟨h1, ⟨h2, h3, z, h4, h5⟩, h6⟩ := ho
  have hb : blockLine n 1 = n + 2 := by
    show 1 + (n - 5 * 0) + 1 = n + 2
    omega
  have hle := blockLine_le n (show 1 ≤ (n + 4) / 5 by omega)
  have hrow : ∀ b r, b < (n + 4) / 5 → 5 * b < r → r ≤ n → rowItems t' i n b r = rowItems t i n b r := by
    intro b r g1 g2 g3
    have := row_in_block n g1 g2 g3
    exact keep_rowItems h (by omega)
  refine ⟨h1, ⟨keep_counted h (by omega) h2, fun r g1 g2 => ?_, z, ?_, h5⟩, fun b r g1 g2 g3 => ?_⟩
  · rw [hrow 0 r (by omega) (by omega) g2]
    exact h3 r g1 g2
  · rw [keep_numberText h (by omega)]
    exact h4
  · unfold RowFine
    rw [hrow b r g1 g2 g3]
    exact h6 b r g1 g2 g3

theorem keep_popLine {i j : Nat} (hj : i + j + 1 < m) : popLine t' i j = popLine t i j := by
  unfold popLine
  exact h.row_before (by omega)

theorem keep_further {i : Nat} {label mark : Str} {j : Nat} {ls : List Str} {k : Nat} (hk : i + k + 1 < m) (hf : Further α t i label mark j ls k) :
    Further α t' i label mark j ls k := by
  induction hf with
  | none h1 => exact .none h1
  | last h1 h2 h3 =>
    rw [← keep_popLine h (by omega)] at h2 h3 ⊢
    exact .last h1 h2 h3
  | more h1 h2 h3 h4 ih =>
    have := further_far h4
    have e1 := keep_popLine h (i := i) (j := _) (show i + _ + 1 < m by omega)
    rw [← keep_popLine h (by omega)] at h2 h3 ⊢
    refine .more h1 h2 h3 ?_
    rw [keep_popLine h (by omega), keep_popLine h (by omega)]
    exact ih hk

theorem keep_atom {i j : Nat} {elem : Str} {ls : List Str} {k : Nat} (hk : i + k + 1 < m) (ha : AtomAt α t i j elem ls k) : AtomAt α t' i j elem ls k := by
  have := atom_far ha
  obtain ⟨⟨h1, h2⟩, h3, l, h4, h5⟩ := ha
  have e1 : popLine t' i j = popLine t i j := keep_popLine h (by omega)
  have e2 : popLine t' i (j + 1) = popLine t i (j + 1) := keep_popLine h (by omega)
  refine ⟨⟨?_, ?_⟩, ?_, l, ?_, ?_⟩
  · rw [e1]; exact h1
  · rw [e2]; exact h2
  · rw [e1]; exact h3
  · rw [e1]; exact h4
  · rw [e1, e2]; exact keep_further h hk h5

theorem keep_atoms {i a j : Nat} {fs : List ((Nat × Str) × Str)} {e : Nat} (he : i + e + 1 < m) (ha : Atoms α t i a j fs e) : Atoms α t' i a j fs e := by
  induction ha with
  | last h1 h2 =>
    refine .last (keep_atom h he h1) ?_
    rw [keep_popLine h he]
    exact h2
  | more h1 h2 h3 ih =>
    have := atoms_far h3
    refine .more (keep_atom h (by omega) h1) ?_ (ih he)
    rw [keep_popLine h (by omega)]
    exact h2

theorem keep_log_table {i : Nat} {k : LogLines.Kind} {f : LogLines.Known α → LogLines.Known α} {e : Nat} (he : e ≤ m) (ht : LogLines.Table t i k f e) :
    LogLines.Table t' i k f e := by
  cases ht with
  | coords h1 h2 =>
    refine .coords (keep_coordRows h (by omega) h1) ?_
    rw [keep_coordLine h (by omega)]
    exact h2
  | energies h1 h2 =>
    rw [← keep_energiesOn h (by omega), ← keep_occupiedOn h (by omega)]
    exact .energies h1 (keep_energyLines h he h2)
  | overlap h1 => exact .overlap (keep_overlap h he h1)
  | population h1 => exact .population (keep_atoms h (by omega) h1)

/-- What is read before the added lines is read as before. -/
theorem log_keep_upto {i j : Nat} {d d' : LogLines.Known α} (hj : j ≤ m) (hu : LogLines.Upto t i d j d') : LogLines.Upto t' i d j d' := by
  induction hu with
  | here => exact .here
  | skip h1 h2 h3 ih =>
    have := log_upto_far h3
    exact .skip (h.some_line (by omega)) (by rw [h.before (by omega)]; exact h2) (ih hj)
  | table h1 h2 h3 h4 ih =>
    have := log_upto_far h4
    have := log_table_far h3
    exact .table (h.some_line (by omega)) (by rw [h.before (by omega)]; exact h2) (keep_log_table h (by omega) h3) (ih hj)

end log

end Verif.Chatter
