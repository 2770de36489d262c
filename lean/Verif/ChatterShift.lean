import Verif.ChatterKeep
/-
Texts with lines added: what is after them.
-/
namespace Verif.Chatter
open Readers Log CutOff
open Pun (rowLine NoLine)

/-- From line `m` on, `t` is what `t'` is from line `m + n` on. -/
structure Moved (t t' : Str) (m n : Nat) : Prop where
  len : (textLines t').length = (textLines t).length + n
  line : ∀ {j}, m ≤ j → lineAt t' (j + n) = lineAt t j

section
variable {t t' : Str} {m n : Nat} (h : Moved t t' m n)
include h

theorem Moved.noLine {i : Nat} (hi : m ≤ i) : NoLine t' (i + n) ↔ NoLine t i := by
  unfold NoLine
  rw [h.len, h.line hi]
  constructor <;> rintro (a | ⟨a, b⟩)
  · exact .inl (by omega)
  · exact .inr ⟨by omega, b⟩
  · exact .inl (by omega)
  · exact .inr ⟨by omega, b⟩

theorem Moved.row {i : Nat} (hi : m ≤ i) : rowLine t' (i + n) = rowLine t i := by
  funext j
  unfold rowLine
  rw [h.len]
  by_cases hl : i < (textLines t).length
  · rw [if_pos (by omega), if_pos hl, show i + n + j = (i + j) + n by omega, h.line (by omega)]
  · rw [if_neg (by omega), if_neg hl]

end

variable {α : Type} [Mul α] [Num α]

section pun
open Pun (RowLines RowAt TableAt BadTable EndlessTable BadRowAt EndlessRow Upto Announces Known Says Fails Endless)
variable {t t' : Str} {m n : Nat} (h : Moved t t' m n)
include h

theorem move_rowLines {count : Option Nat} {i k : Nat} {vals : Nat → List α} (hi : m ≤ i) : RowLines t' count (i + n) k vals ↔ RowLines t count i k vals := by
  unfold RowLines
  rw [h.row hi]

theorem move_rowAt {count : Option Nat} {i k : Nat} {row : List α} (hi : m ≤ i) : RowAt t' count (i + n) k row ↔ RowAt t count i k row := by
  unfold RowAt
  simp only [move_rowLines h hi, h.row hi]

theorem move_badRow {count : Option Nat} {i : Nat} {e : Exn} (hi : m ≤ i) : BadRowAt α t' count (i + n) e ↔ BadRowAt α t count i e := by
  unfold BadRowAt
  simp only [move_rowLines h hi, h.row hi]

theorem move_endlessRow {count : Option Nat} {i : Nat} (hi : m ≤ i) : EndlessRow α t' count (i + n) ↔ EndlessRow α t count i := by
  unfold EndlessRow
  simp only [move_rowLines h hi]

theorem move_table {spin : Spin} {count : Option Nat} {i : Nat} {rows : List (List α)} {e : Nat} (hi : m ≤ i) (ht : TableAt t spin count i rows e) :
    TableAt t' spin count (i + n) rows (e + n) := by
  induction ht with
  | @last count i k row h1 h2 =>
    rw [show i + k + 1 + n = (i + n) + k + 1 by omega]
    exact .last ((move_rowAt h hi).2 h1) (by rw [h.row hi]; exact h2)
  | @more count i k row rows e h1 h2 h3 ih =>
    have := ih (by omega)
    rw [show i + k + 1 + n = (i + n) + k + 1 by omega] at this
    exact .more ((move_rowAt h hi).2 h1) (by rw [h.row hi]; exact h2) this

theorem move_bad {spin : Spin} {count : Option Nat} {i : Nat} {e : Exn} (hi : m ≤ i) (ht : BadTable α t spin count i e) :
    BadTable α t' spin count (i + n) e := by
  induction ht with
  | here h1 => exact .here ((move_badRow h hi).2 h1)
  | @later count i k e row h1 h2 h3 ih =>
    have := ih (by omega)
    rw [show i + k + 1 + n = (i + n) + k + 1 by omega] at this
    exact .later ((move_rowAt h hi).2 h1) (by rw [h.row hi]; exact h2) this

theorem move_endless {spin : Spin} {count : Option Nat} {i : Nat} (hi : m ≤ i) (ht : EndlessTable α t spin count i) :
    EndlessTable α t' spin count (i + n) := by
  induction ht with
  | here h1 => exact .here ((move_endlessRow h hi).2 h1)
  | @later count i k row h1 h2 h3 ih =>
    have := ih (by omega)
    rw [show i + k + 1 + n = (i + n) + k + 1 by omega] at this
    exact .later ((move_rowAt h hi).2 h1) (by rw [h.row hi]; exact h2) this

theorem move_says {i : Nat} {d d' : Known α} (hi : m ≤ i) (hs : Says t i d d') : Says t' (i + n) d d' := by
  induction hs with
  | done hn => exact .done ((h.noLine hi).2 hn)
  | @skip i d d' h1 h2 _ ih =>
    have := ih (by omega)
    rw [show i + 1 + n = i + n + 1 by omega] at this
    exact .skip (by rw [h.noLine hi]; exact h1) (by rw [h.line hi]; exact h2) this
  | @table i d d' spin rows e h1 h2 h3 h4 _ ih =>
    have := table_far h3
    have h3' := move_table h (show m ≤ i + 1 by omega) h3
    rw [show i + 1 + n = i + n + 1 by omega] at h3'
    exact .table (by rw [h.noLine hi]; exact h1) (by rw [h.line hi]; exact h2) h3' h4 (ih (by omega))

theorem move_fails {i : Nat} {e : Exn} (hi : m ≤ i) (hs : Fails α t i e) : Fails α t' (i + n) e := by
  induction hs with
  | @bad i spin e h1 h2 h3 =>
    have h3' := move_bad h (show m ≤ i + 1 by omega) h3
    rw [show i + 1 + n = i + n + 1 by omega] at h3'
    exact .bad (by rw [h.noLine hi]; exact h1) (by rw [h.line hi]; exact h2) h3'
  | @uneven i spin e rows h1 h2 h3 h4 =>
    have h3' := move_table h (show m ≤ i + 1 by omega) h3
    rw [show i + 1 + n = i + n + 1 by omega] at h3'
    exact .uneven (by rw [h.noLine hi]; exact h1) (by rw [h.line hi]; exact h2) h3' h4
  | @skip i e h1 h2 _ ih =>
    have := ih (by omega)
    rw [show i + 1 + n = i + n + 1 by omega] at this
    exact .skip (by rw [h.noLine hi]; exact h1) (by rw [h.line hi]; exact h2) this
  | @table i spin k e rows h1 h2 h3 h4 _ ih =>
    have := table_far h3
    have h3' := move_table h (show m ≤ i + 1 by omega) h3
    rw [show i + 1 + n = i + n + 1 by omega] at h3'
    exact .table (by rw [h.noLine hi]; exact h1) (by rw [h.line hi]; exact h2) h3' h4 (ih (by omega))

theorem move_never {i : Nat} (hi : m ≤ i) (hs : Endless α t i) : Endless α t' (i + n) := by
  induction hs with
  | @here i spin h1 h2 h3 =>
    have h3' := move_endless h (show m ≤ i + 1 by omega) h3
    rw [show i + 1 + n = i + n + 1 by omega] at h3'
    exact .here (by rw [h.noLine hi]; exact h1) (by rw [h.line hi]; exact h2) h3'
  | @skip i h1 h2 _ ih =>
    have := ih (by omega)
    rw [show i + 1 + n = i + n + 1 by omega] at this
    exact .skip (by rw [h.noLine hi]; exact h1) (by rw [h.line hi]; exact h2) this
  | @table i spin k rows h1 h2 h3 h4 _ ih =>
    have := table_far h3
    have h3' := move_table h (show m ≤ i + 1 by omega) h3
    rw [show i + 1 + n = i + n + 1 by omega] at h3'
    exact .table (by rw [h.noLine hi]; exact h1) (by rw [h.line hi]; exact h2) h3' h4 (ih (by omega))

end pun

/-! ### log files -/

section same
open LogLines
variable {t t' : Str} {i i' : Nat} (h : popLine t' i' = popLine t i)
include h

theorem same_further {label mark : Str} {j : Nat} {ls : List Str} {k : Nat} (hf : Further α t i label mark j ls k) : Further α t' i' label mark j ls k := by
  induction hf with
  | none h1 => exact .none h1
  | last h1 h2 h3 => rw [← h] at h2 h3 ⊢; exact .last h1 h2 h3
  | more h1 h2 h3 h4 ih => rw [← h] at h2 h3 ih ⊢; exact .more h1 h2 h3 ih

theorem same_badFurther {label mark : Str} {j : Nat} {e : Exn} (hf : BadFurther α t i label mark j e) : BadFurther α t' i' label mark j e := by
  induction hf with
  | here h1 h2 => rw [← h] at h2; exact .here h1 h2
  | later h1 h2 h3 h4 ih => rw [← h] at h2 h3 ih; exact .later h1 h2 h3 ih

theorem same_openFurther {label mark : Str} {j k : Nat} (hf : OpenFurther α t i label mark j k) : OpenFurther α t' i' label mark j k := by
  induction hf with
  | zero => exact .zero
  | succ h1 h2 h3 h4 ih => rw [← h] at h2 h3 ih; exact .succ h1 h2 h3 ih

theorem same_first {j : Nat} (hf : FirstFn α t i j) : FirstFn α t' i' j := by
  unfold FirstFn at hf ⊢
  rw [h]
  exact hf

theorem same_atom {j : Nat} {elem : Str} {ls : List Str} {k : Nat} (ha : AtomAt α t i j elem ls k) : AtomAt α t' i' j elem ls k := by
  obtain ⟨h1, h2, l, h3, h4⟩ := ha
  refine ⟨same_first h h1, by rw [h]; exact h2, l, by rw [h]; exact h3, ?_⟩
  rw [h]
  exact same_further h h4

theorem same_atoms {a j : Nat} {fs : List ((Nat × Str) × Str)} {e : Nat} (ha : Atoms α t i a j fs e) : Atoms α t' i' a j fs e := by
  induction ha with
  | last h1 h2 => exact .last (same_atom h h1) (by rw [h]; exact h2)
  | more h1 h2 _ ih => exact .more (same_atom h h1) (by rw [h]; exact h2) ih

theorem same_badAtoms {j : Nat} {e : Exn} (ha : BadAtoms α t i j e) : BadAtoms α t' i' j e := by
  induction ha with
  | first h1 => exact .first (by rw [h]; exact h1)
  | short h1 h2 => exact .short (by rw [h]; exact h1) (by rw [h]; exact h2)
  | further h1 h2 =>
    refine .further (same_first h h1) ?_
    rw [h]
    exact same_badFurther h h2
  | later h1 h2 _ ih => exact .later (same_atom h h1) (by rw [h]; exact h2) ih

theorem same_openAtoms {j k : Nat} (ha : OpenAtoms α t i j k) : OpenAtoms α t' i' j k := by
  induction ha with
  | zero => exact .zero
  | succ h1 h2 _ ih => exact .succ (same_atom h h1) (by rw [h]; exact h2) ih

theorem same_endlessAtoms {j : Nat} (ha : EndlessAtoms α t i j) : EndlessAtoms α t' i' j := by
  induction ha with
  | further h1 h2 =>
    refine .further (same_first h h1) fun k => ?_
    rw [h]
    exact same_openFurther h (h2 k)
  | atoms h1 => exact .atoms fun k => same_openAtoms h (h1 k)
  | later h1 h2 _ ih => exact .later (same_atom h h1) (by rw [h]; exact h2) ih

end same

section rows
open LogLines
variable {t t' : Str} {i i' : Nat} (h : rowLine t' (i' + 1) = rowLine t (i + 1))
include h

theorem same_number (j : Nat) : numberText t' i' j = numberText t i j := by
  induction j with
  | zero => rfl
  | succ j ih => rw [numberText, numberText, ih, h]

theorem same_items (n b r : Nat) : rowItems t' i' n b r = rowItems t i n b r := by
  unfold rowItems
  rw [h]

theorem same_counted (n : Nat) : Counted t' i' n ↔ Counted t i n := by
  unfold Counted
  simp only [same_number h]

theorem same_block (n : Nat) (vals : Nat → List α) : FirstBlock t' i' n vals ↔ FirstBlock t i n vals := by
  unfold FirstBlock
  simp only [same_counted h, same_items h, same_number h]

theorem same_rowFine (n b r : Nat) (vals : List α) : RowFine t' i' n b r vals ↔ RowFine t i n b r vals := by
  unfold RowFine
  simp only [same_items h]

theorem same_overlap (n : Nat) (vals : Nat → Nat → List α) : OverlapAt t' i' n vals ↔ OverlapAt t i n vals := by
  unfold OverlapAt
  simp only [same_block h, same_rowFine h]

theorem same_overlapFault {f : Fault} (ho : OverlapFault α t i f) : OverlapFault α t' i' f := by
  cases ho with
  | number h1 h2 h3 => exact .number ((same_counted h _).2 h1) (by simpa only [same_items h] using h2) (by rw [same_number h]; exact h3)
  | value h1 h2 h3 => exact .value ((same_counted h _).2 h1) (by simpa only [same_items h] using h2) (by rw [same_items h]; exact h3)
  | empty h1 => exact .empty ((same_block h _ _).2 h1)
  | wide h1 h2 h3 h4 h5 => exact .wide h1 ((same_block h _ _).2 h2) h3 h4 h5
  | laterValue h1 h2 h3 h4 h5 h6 =>
    exact .laterValue ((same_block h _ _).2 h1) h2 h3 h4 (by simpa only [same_rowFine h] using h5) (by rw [same_items h]; exact h6)
  | laterWide h1 h2 h3 h4 h5 h6 h7 =>
    exact .laterWide ((same_block h _ _).2 h1) h2 h3 h4 (by simpa only [same_rowFine h] using h5) (by rw [same_items h]; exact h6) h7

end rows

section log
open LogLines (Table BadTable EndlessTable EnergyLines energiesOn coordLine CoordRows popLine Says Fails Endless Known)
variable {t t' : Str} {m n : Nat} (h : Moved t t' m n)
include h

theorem move_line {i : Nat} (hi : m ≤ i) (j : Nat) : lineAt t' (i + n + j) = lineAt t (i + j) := by
  rw [show i + n + j = i + j + n by omega]
  exact h.line (by omega)

theorem move_none {i : Nat} (hi : m ≤ i) (j : Nat) : NoLine t' (i + n + j) ↔ NoLine t (i + j) := by
  rw [show i + n + j = i + j + n by omega]
  exact h.noLine (by omega)

theorem move_after {i : Nat} (hi : m ≤ i) : rowLine t' (i + n + 1) = rowLine t (i + 1) := by
  rw [show i + n + 1 = i + 1 + n by omega]
  exact h.row (by omega)

theorem move_energies {i : Nat} (hi : m ≤ i) (k : Nat) : (energiesOn t' (i + n) k : List α) = energiesOn t i k := by
  unfold energiesOn
  simp only [move_line h hi]

theorem move_occupied {i : Nat} (hi : m ≤ i) (spin : Spin) (k : Nat) : LogLines.occupiedOn α t' spin (i + n) k = LogLines.occupiedOn α t spin i k := by
  unfold LogLines.occupiedOn
  congr 1
  refine List.map_congr_left fun j _ => ?_
  rw [move_line h hi]

theorem move_energyLines {i : Nat} (hi : m ≤ i) (spin : Spin) (k : Nat) : EnergyLines t' spin (i + n) k ↔ EnergyLines t spin i k := by
  unfold EnergyLines
  simp only [move_line h hi, move_none h hi]

theorem move_coordLine {i : Nat} (hi : m ≤ i) (j : Nat) : coordLine t' (i + n) j = coordLine t i j := by
  unfold coordLine
  rw [move_after h hi]

theorem move_coordRows {i : Nat} (hi : m ≤ i) (k : Nat) (pos : Nat → α × α × α) : CoordRows t' (i + n) k pos ↔ CoordRows t i k pos := by
  unfold CoordRows
  simp only [move_coordLine h hi]

theorem move_popLine {i : Nat} (hi : m ≤ i) : popLine t' (i + n) = popLine t i := by
  funext j
  unfold popLine
  rw [move_after h hi]

theorem move_logTable {i : Nat} (hi : m ≤ i) {k : LogLines.Kind} {f : Known α → Known α} {e : Nat} (ht : Table t i k f e) : Table t' (i + n) k f (e + n) := by
  cases ht with
  | @coords k pos h1 h2 =>
    rw [show i + k + 4 + n = i + n + k + 4 by omega]
    exact .coords ((move_coordRows h hi _ _).2 h1) (by rw [move_coordLine h hi]; exact h2)
  | @energies spin k h1 h2 =>
    rw [show i + k + n = i + n + k by omega, ← move_energies h hi, ← move_occupied h hi]
    exact .energies h1 ((move_energyLines h hi _ _).2 h2)
  | @overlap N vals h1 =>
    rw [show i + 1 + LogLines.blockLine N ((N + 4) / 5) + n = i + n + 1 + LogLines.blockLine N ((N + 4) / 5) by omega]
    exact .overlap ((same_overlap (move_after h hi) _ _).2 h1)
  | @population fs e h1 =>
    rw [show i + e + 2 + n = i + n + e + 2 by omega]
    exact .population (same_atoms (move_popLine h hi) h1)

theorem move_logBad {i : Nat} (hi : m ≤ i) {k : LogLines.Kind} {x : LogLines.Fault} (ht : BadTable α t i k x) : BadTable α t' (i + n) k x := by
  cases ht with
  | @coords k e pos h1 h2 h3 =>
    exact .coords ((move_coordRows h hi _ _).2 h1) (by rw [move_coordLine h hi]; exact h2) (by rw [move_coordLine h hi]; exact h3)
  | overlap h1 => exact .overlap (same_overlapFault (move_after h hi) h1)
  | population h1 => exact .population (same_badAtoms (move_popLine h hi) h1)

theorem move_logEndless {i : Nat} (hi : m ≤ i) {k : LogLines.Kind} (ht : EndlessTable α t i k) : EndlessTable α t' (i + n) k := by
  cases ht with
  | coords h1 => exact .coords fun k => (move_coordRows h hi _ _).2 (h1 k)
  | energies h1 => exact .energies ((move_energyLines h hi _ _).2 h1)
  | population h1 => exact .population (same_endlessAtoms (move_popLine h hi) h1)

theorem log_move_says {i : Nat} {d d' : Known α} (hi : m ≤ i) (hs : Says t i d d') : Says t' (i + n) d d' := by
  induction hs with
  | done hn => exact .done ((h.noLine hi).2 hn)
  | @skip i d d' h1 h2 _ ih =>
    have := ih (by omega)
    rw [show i + 1 + n = i + n + 1 by omega] at this
    exact .skip (by rw [h.noLine hi]; exact h1) (by rw [h.line hi]; exact h2) this
  | @table i k f e d d' h1 h2 h3 _ ih =>
    have := log_table_far h3
    exact .table (by rw [h.noLine hi]; exact h1) (by rw [h.line hi]; exact h2) (move_logTable h hi h3) (ih (by omega))

theorem log_move_fails {i : Nat} {x : LogLines.Fault} (hi : m ≤ i) (hs : Fails α t i x) : Fails α t' (i + n) x := by
  induction hs with
  | bad h1 h2 h3 => exact .bad (by rw [h.noLine hi]; exact h1) (by rw [h.line hi]; exact h2) (move_logBad h hi h3)
  | @skip i x h1 h2 _ ih =>
    have := ih (by omega)
    rw [show i + 1 + n = i + n + 1 by omega] at this
    exact .skip (by rw [h.noLine hi]; exact h1) (by rw [h.line hi]; exact h2) this
  | @table i k e x f h1 h2 h3 _ ih =>
    have := log_table_far h3
    exact .table (by rw [h.noLine hi]; exact h1) (by rw [h.line hi]; exact h2) (move_logTable h hi h3) (ih (by omega))

theorem log_move_never {i : Nat} (hi : m ≤ i) (hs : Endless α t i) : Endless α t' (i + n) := by
  induction hs with
  | here h1 h2 h3 => exact .here (by rw [h.noLine hi]; exact h1) (by rw [h.line hi]; exact h2) (move_logEndless h hi h3)
  | @skip i h1 h2 _ ih =>
    have := ih (by omega)
    rw [show i + 1 + n = i + n + 1 by omega] at this
    exact .skip (by rw [h.noLine hi]; exact h1) (by rw [h.line hi]; exact h2) this
  | @table i k e f h1 h2 h3 _ ih =>
    have := log_table_far h3
    exact .table (by rw [h.noLine hi]; exact h1) (by rw [h.line hi]; exact h2) (move_logTable h hi h3) (ih (by omega))

end log

end Verif.Chatter
