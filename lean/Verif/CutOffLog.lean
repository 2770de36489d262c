import Verif.CutOffPun
/-
Log files that are cut off: what is read before the cut.
-/
namespace Verif.CutOff
open Readers Log
open Pun (rowLine NoLine)
open LogLines (CoordRows coordLine IsRuler Mentions precedence numberText Counted rowItems blockLine FirstBlock OverlapAt RowFine OverlapFault popLine IsEnd
  Further FirstFn AtomAt Atoms EnergyLines IsOcc IsVirt energiesOn lineEnergies words beyond fortranNumber BadTable EndlessTable nothing
  numbers elementOn firstLabel columns nextLabel nextMark stoi_cases)

variable {α : Type} [Mul α] [Num α]

section
variable {t t' : Str} {m : Nat} {p : Str} (h : CutAt t t' m p)
include h

theorem cut_contains {j : Nat} (hj : j = m) {q : Str} (hq : ¬ Contains (lineAt t j) q) : ¬ Contains (lineAt t' j) q := by
  subst hj
  intro hc
  rw [h.after (Nat.le_refl _)] at hc
  exact hq (h.contains hc)

/-! ### coordinates -/

theorem cut_coordLine {i j : Nat} (hj : i + j + 3 < m) : coordLine t' i j = coordLine t i j := by
  unfold coordLine
  exact h.row_before (by omega)

theorem cut_coordRows {i k : Nat} {pos : Nat → α × α × α} (hk : i + k + 2 < m) (hr : CoordRows t i k pos) : CoordRows t' i k pos := by
  intro j hj
  rw [cut_coordLine h (by omega)]
  exact hr j hj

/-! ### energies -/

theorem cut_energiesOn {i k : Nat} (hk : i + k ≤ m) : (energiesOn t' i k : List α) = energiesOn t i k := by
  unfold energiesOn
  refine List.flatMap_congr fun j hj => ?_
  rw [List.mem_range] at hj
  rw [h.before (by omega)]

theorem cut_occupiedOn {spin : Spin} {i k : Nat} (hk : i + k ≤ m) : LogLines.occupiedOn α t' spin i k = LogLines.occupiedOn α t spin i k := by
  unfold LogLines.occupiedOn
  congr 1
  refine List.map_congr_left fun j hj => ?_
  rw [List.mem_range] at hj
  rw [h.before (by omega)]

theorem cut_energyLines {spin : Spin} {i k : Nat} (hk : i + k ≤ m) (he : EnergyLines t spin i k) : EnergyLines t' spin i k := by
  refine ⟨fun j hj => ⟨h.some_line (by omega), ?_⟩, ?_⟩
  · rw [h.before (by omega)]
    exact (he.1 j hj).2
  · by_cases hkm : i + k = m
    · rcases he.2 with hn | hn
      · left
        rw [hkm] at hn ⊢
        rw [h.noLine]
        rcases hn with hn | hn
        · have := h.line; omega
        · have := h.part
          rw [hn.2] at this
          exact List.prefix_nil.1 this
      · exact .inr ⟨cut_contains h hkm hn.1, cut_contains h hkm hn.2⟩
    · rcases he.2 with hn | hn
      · have := h.line
        unfold NoLine at hn
        omega
      · right
        rw [h.before (by omega)]
        exact hn

/-! ### overlaps -/

omit h in
theorem blockLine_pos (n b : Nat) : 1 ≤ blockLine n b := by
  cases b with
  | zero => exact Nat.le_refl _
  | succ b => rw [blockLine]; omega

omit h in
theorem blockLine_le (n : Nat) {b b' : Nat} (hb : b ≤ b') : blockLine n b ≤ blockLine n b' := by
  induction hb with
  | refl => exact Nat.le_refl _
  | step _ ih => rw [blockLine]; omega

omit h in
theorem row_in_block (n : Nat) {b b' r : Nat} (hb : b < b') (hr : 5 * b < r) (hrn : r ≤ n) : blockLine n b + (r - 5 * b - 1) + 1 < blockLine n b' := by
  have := blockLine_le n (show b + 1 ≤ b' from hb)
  rw [blockLine] at this
  omega

theorem cut_numberText {i j : Nat} (hj : i + 1 + j < m) : numberText t' i j = numberText t i j := by
  induction j with
  | zero => rfl
  | succ j ih => rw [numberText, numberText, ih (by omega), h.row_before (by omega)]

theorem cut_rowItems {i n b r : Nat} (hr : i + 1 + (blockLine n b + (r - 5 * b - 1)) < m) : rowItems t' i n b r = rowItems t i n b r := by
  unfold rowItems
  rw [h.row_before hr]

theorem cut_counted {i n : Nat} (hn : i + 1 + n < m) (hc : Counted t i n) : Counted t' i n := by
  intro j hj
  rw [cut_numberText h (by omega)]
  exact hc j hj

theorem cut_overlap {i n : Nat} {vals : Nat → Nat → List α} (he : i + 1 + blockLine n ((n + 4) / 5) ≤ m) (ho : OverlapAt t i n vals) : OverlapAt t' i n vals := by
  obtain ⟨h1, ⟨h2, h3, z, h4, h5⟩, h6⟩ := ho
  have hb : blockLine n 1 = n + 2 := by
    show 1 + (n - 5 * 0) + 1 = n + 2
    omega
  have hle := blockLine_le n (show 1 ≤ (n + 4) / 5 by omega)
  have hrow : ∀ b r, b < (n + 4) / 5 → 5 * b < r → r ≤ n → rowItems t' i n b r = rowItems t i n b r := by
    intro b r g1 g2 g3
    have := row_in_block n g1 g2 g3
    exact cut_rowItems h (by omega)
  refine ⟨h1, ⟨cut_counted h (by omega) h2, fun r g1 g2 => ?_, z, ?_, h5⟩, fun b r g1 g2 g3 => ?_⟩
  · rw [hrow 0 r (by omega) (by omega) g2]
    exact h3 r g1 g2
  · rw [cut_numberText h (by omega)]
    exact h4
  · unfold RowFine
    rw [hrow b r g1 g2 g3]
    exact h6 b r g1 g2 g3

/-! ### populations -/

theorem cut_popLine {i j : Nat} (hj : i + j + 1 < m) : popLine t' i j = popLine t i j := by
  unfold popLine
  exact h.row_before (by omega)

omit h in
theorem further_far {i : Nat} {label mark : Str} {j : Nat} {ls : List Str} {k : Nat} (hf : Further α t i label mark j ls k) : j ≤ k := by
  induction hf with
  | none => exact Nat.le_refl _
  | last => omega
  | more _ _ _ _ ih => omega

theorem cut_further {i : Nat} {label mark : Str} {j : Nat} {ls : List Str} {k : Nat} (hk : i + k + 1 < m) (hf : Further α t i label mark j ls k) :
    Further α t' i label mark j ls k := by
  induction hf with
  | none h1 => exact .none h1
  | last h1 h2 h3 =>
    rw [← cut_popLine h (by omega)] at h2 h3 ⊢
    exact .last h1 h2 h3
  | more h1 h2 h3 h4 ih =>
    have := further_far h4
    have e1 := cut_popLine h (i := i) (j := _) (show i + _ + 1 < m by omega)
    rw [← cut_popLine h (by omega)] at h2 h3 ⊢
    refine .more h1 h2 h3 ?_
    rw [cut_popLine h (by omega), cut_popLine h (by omega)]
    exact ih hk

omit h in
theorem atom_far {i j : Nat} {elem : Str} {ls : List Str} {k : Nat} (ha : AtomAt α t i j elem ls k) : j + 1 ≤ k := by
  obtain ⟨-, -, _, -, hf⟩ := ha
  exact further_far hf

theorem cut_atom {i j : Nat} {elem : Str} {ls : List Str} {k : Nat} (hk : i + k + 1 < m) (ha : AtomAt α t i j elem ls k) : AtomAt α t' i j elem ls k := by
  have := atom_far ha
  obtain ⟨⟨h1, h2⟩, h3, l, h4, h5⟩ := ha
  have e1 : popLine t' i j = popLine t i j := cut_popLine h (by omega)
  have e2 : popLine t' i (j + 1) = popLine t i (j + 1) := cut_popLine h (by omega)
  refine ⟨⟨?_, ?_⟩, ?_, l, ?_, ?_⟩
  · rw [e1]; exact h1
  · rw [e2]; exact h2
  · rw [e1]; exact h3
  · rw [e1]; exact h4
  · rw [e1, e2]; exact cut_further h hk h5

omit h in
theorem atoms_far {i a j : Nat} {fs : List ((Nat × Str) × Str)} {e : Nat} (ha : Atoms α t i a j fs e) : j + 1 ≤ e := by
  induction ha with
  | last h1 => exact atom_far h1
  | more h1 _ _ ih => have := atom_far h1; omega

theorem cut_atoms {i a j : Nat} {fs : List ((Nat × Str) × Str)} {e : Nat} (he : i + e + 1 < m) (ha : Atoms α t i a j fs e) : Atoms α t' i a j fs e := by
  induction ha with
  | last h1 h2 =>
    refine .last (cut_atom h he h1) ?_
    rw [cut_popLine h he]
    exact h2
  | more h1 h2 h3 ih =>
    have := atoms_far h3
    refine .more (cut_atom h (by omega) h1) ?_ (ih he)
    rw [cut_popLine h (by omega)]
    exact h2

omit h in
/-- The table ends with such a line. -/
theorem _root_.Verif.LogLines.Atoms.ends {t : Str} {i a j : Nat} {fs : List ((Nat × Str) × Str)} {e : Nat} (ha : Atoms α t i a j fs e) : IsEnd (popLine t i e) := by
  induction ha with
  | last _ h2 => exact h2
  | more _ _ _ ih => exact ih

/-! ### tables -/

omit h in
theorem log_table_far {i : Nat} {k : LogLines.Kind} {f : LogLines.Known α → LogLines.Known α} {e : Nat} (ht : LogLines.Table t i k f e) : i < e := by
  cases ht with
  | coords => omega
  | energies => omega
  | overlap => omega
  | population => omega

theorem cut_log_table {i : Nat} {k : LogLines.Kind} {f : LogLines.Known α → LogLines.Known α} {e : Nat} (he : e ≤ m) (ht : LogLines.Table t i k f e) :
    LogLines.Table t' i k f e := by
  cases ht with
  | coords h1 h2 =>
    refine .coords (cut_coordRows h (by omega) h1) ?_
    rw [cut_coordLine h (by omega)]
    exact h2
  | energies h1 h2 =>
    rw [← cut_energiesOn h (by omega), ← cut_occupiedOn h (by omega)]
    exact .energies h1 (cut_energyLines h he h2)
  | overlap h1 => exact .overlap (cut_overlap h he h1)
  | population h1 => exact .population (cut_atoms h (by omega) h1)

omit h in
theorem log_upto_far {i j : Nat} {d d' : LogLines.Known α} (hu : LogLines.Upto t i d j d') : i ≤ j := by
  induction hu with
  | here => exact Nat.le_refl _
  | skip _ _ _ ih => omega
  | table _ _ h3 _ ih => have := log_table_far h3; omega

/-- What is read before the cut is read as before. -/
theorem log_cut_upto {i j : Nat} {d d' : LogLines.Known α} (hj : j ≤ m) (hu : LogLines.Upto t i d j d') : LogLines.Upto t' i d j d' := by
  induction hu with
  | here => exact .here
  | skip h1 h2 h3 ih =>
    have := log_upto_far h3
    exact .skip (h.some_line (by omega)) (by rw [h.before (by omega)]; exact h2) (ih hj)
  | table h1 h2 h3 h4 ih =>
    have := log_upto_far h4
    have := log_table_far h3
    exact .table (h.some_line (by omega)) (by rw [h.before (by omega)]; exact h2) (cut_log_table h (by omega) h3) (ih hj)

omit h in
theorem log_upto_says {i j : Nat} {d d' d'' : LogLines.Known α} (hu : LogLines.Upto t i d j d') (hs : LogLines.Says t j d' d'') : LogLines.Says t i d d'' := by
  induction hu with
  | here => exact hs
  | skip h1 h2 _ ih => exact .skip h1 h2 (ih hs)
  | table h1 h2 h3 _ ih => exact .table h1 h2 h3 (ih hs)

omit h in
theorem log_upto_fails {i j : Nat} {d d' : LogLines.Known α} (hu : LogLines.Upto t i d j d') {x : LogLines.Fault} (hs : LogLines.Fails α t j x) : LogLines.Fails α t i x := by
  induction hu with
  | here => exact hs
  | skip h1 h2 _ ih => exact .skip h1 h2 (ih hs)
  | table h1 h2 h3 _ ih => exact .table h1 h2 h3 (ih hs)

omit h in
theorem log_upto_endless {i j : Nat} {d d' : LogLines.Known α} (hu : LogLines.Upto t i d j d') (hs : LogLines.Endless α t j) : LogLines.Endless α t i := by
  induction hu with
  | here => exact hs
  | skip h1 h2 _ ih => exact .skip h1 h2 (ih hs)
  | table h1 h2 h3 _ ih => exact .table h1 h2 h3 (ih hs)

omit h in
theorem log_says_upto {i : Nat} {d d' : LogLines.Known α} (hs : LogLines.Says t i d d') : ∃ j, LogLines.Upto t i d j d' ∧ NoLine t j := by
  induction hs with
  | done hn => exact ⟨_, .here, hn⟩
  | skip h1 h2 _ ih => obtain ⟨j, a, b⟩ := ih; exact ⟨j, .skip h1 h2 a, b⟩
  | table h1 h2 h3 _ ih => obtain ⟨j, a, b⟩ := ih; exact ⟨j, .table h1 h2 h3 a, b⟩

/-- The line of the cut, and nothing after it. -/
theorem log_rest (hp : ∀ k, ¬ LogLines.Announces p k) (d : LogLines.Known α) : LogLines.Says t' m d d := by
  by_cases hn : NoLine t' m
  · exact .done hn
  · exact .skip hn (by rw [h.after (Nat.le_refl _)]; exact hp) (.done h.none_after)

/-- Between tables. -/
theorem log_cut_between {d : LogLines.Known α} (hu : LogLines.Upto t 0 nothing m d) (hp : ∀ k, ¬ LogLines.Announces p k) : LogLines.Says t' 0 nothing d :=
  log_upto_says (log_cut_upto h (Nat.le_refl _) hu) (log_rest h hp d)

/-! ### energies that are cut off -/

/-- Right after a line, or in a line that no longer lists energies. -/
theorem cut_energies {i k : Nat} {spin : Spin} (hk : 1 ≤ k) (hm : i + k = m) (ha : LogLines.Announces (lineAt t i) (.energies spin))
    (hl : ∀ j < k, IsOcc spin (lineAt t (i + j)) ∨ IsVirt spin (lineAt t (i + j))) (hp : ∀ k, ¬ LogLines.Announces p k) (ho : ¬ IsOcc spin p) (hv : ¬ IsVirt spin p)
    (d : LogLines.Known α) :
    LogLines.Says t' i d { d with energies := fun s => if s = spin then some (energiesOn t i k, LogLines.occupiedOn α t spin i k) else d.energies s } := by
  have he : EnergyLines t' spin i k := by
    refine ⟨fun j hj => ⟨h.some_line (by omega), ?_⟩, .inr ?_⟩
    · rw [h.before (by omega)]
      exact hl j hj
    · rw [h.after (by omega)]
      exact ⟨ho, hv⟩
  have ht := LogLines.Table.energies (α := α) hk he
  rw [cut_energiesOn h (by omega), cut_occupiedOn h (by omega)] at ht
  refine .table (h.some_line (by omega)) (by rw [h.before (by omega)]; exact ha) ht ?_
  rw [hm]
  exact log_rest h hp _

open Classical in
/-- In a line that still does. -/
theorem cut_energy_line [Zero α] {i k : Nat} {spin : Spin} (hk : 1 ≤ k) (hm : i + k = m) (ha : LogLines.Announces (lineAt t i) (.energies spin))
    (hl : ∀ j < k, IsOcc spin (lineAt t (i + j)) ∨ IsVirt spin (lineAt t (i + j))) (hp : IsOcc spin p ∨ IsVirt spin p)
    (d : LogLines.Known α) :
    LogLines.Says t' i d { d with energies := fun s => if s = spin then some (energiesOn t i k ++ lineEnergies p,
      LogLines.occupiedOn α t spin i k + if IsOcc spin p then (lineEnergies p : List α).length else 0) else d.energies s } := by
  have hne : ¬ NoLine t' m := by
    rw [h.noLine]
    rintro rfl
    rcases hp with ⟨x, y, hp⟩ | ⟨x, y, hp⟩
    · have := congrArg List.length hp; simp at this
    · have := congrArg List.length hp; simp at this
  have he : EnergyLines t' spin i (k + 1) := by
    refine ⟨fun j hj => ?_, .inl ?_⟩
    · by_cases hjk : j < k
      · refine ⟨h.some_line (by omega), ?_⟩
        rw [h.before (by omega)]
        exact hl j hjk
      · obtain rfl : j = k := by omega
        rw [hm, h.after (Nat.le_refl _)]
        exact ⟨hne, hp⟩
    · rw [← Nat.add_assoc, hm]
      exact h.none_after
  have ht := LogLines.Table.energies (α := α) (by omega : 1 ≤ k + 1) he
  rw [LogLines.energiesOn_succ, LogLines.occupiedOn_succ, cut_energiesOn h (by omega), cut_occupiedOn h (by omega), hm, h.after (Nat.le_refl _)] at ht
  refine .table (h.some_line (by omega)) (by rw [h.before (by omega)]; exact ha) ht (.done ?_)
  rw [← Nat.add_assoc, hm]
  exact h.none_after

/-! ### positions and populations that are cut off -/

theorem cut_coords {i : Nat} (hi : i < m) (hr : ∀ j, i + 3 ≤ j → j < m → ¬ IsRuler (lineAt t j)) (hp : ¬ IsRuler p) {f : LogLines.Known α → LogLines.Known α} {e : Nat} :
    ¬ LogLines.Table t' i .coords f e := by
  intro ht
  cases ht with
  | @coords k pos h1 h2 =>
    unfold coordLine at h2
    by_cases hk : i + 1 + (k + 2) < m
    · rw [h.row_before hk] at h2
      unfold rowLine at h2
      rw [if_pos (by have := h.line; omega)] at h2
      exact hr _ (by omega) hk h2
    · rw [h.row_after (by omega) (by omega)] at h2
      exact hp h2

theorem cut_population {i : Nat} (hi : i < m) (hr : ∀ j, i + 3 ≤ j → j < m → ¬ IsEnd (lineAt t j)) (hp : ¬ IsEnd p) {f : LogLines.Known α → LogLines.Known α} {e : Nat} :
    ¬ LogLines.Table t' i .population f e := by
  intro ht
  cases ht with
  | @population fs k h1 =>
    have h2 := h1.ends
    have h3 := atoms_far h1
    unfold popLine at h2
    by_cases hk : i + 1 + k < m
    · rw [h.row_before hk] at h2
      unfold rowLine at h2
      rw [if_pos (by have := h.line; omega)] at h2
      exact hr _ (by omega) hk h2
    · rw [h.row_after (by omega) (by omega)] at h2
      exact hp h2

/-! ### overlaps that are cut off -/

omit h in
theorem items_nil {k : Nat} (hk : 1 ≤ k) : beyond k [] = [] := by
  unfold beyond
  rw [if_pos (by simp only [words, List.length_nil]; omega)]

omit h in
theorem number_step {t : Str} {i j : Nat} (hj : rowLine t (i + 1) (j + 1) = []) : numberText t i (j + 1) = numberText t i j := by
  rw [numberText, hj]
  rfl

theorem cut_number_after (hp : p = []) {i j : Nat} (hi : i < m) (hj : m ≤ i + 1 + (j + 1)) : numberText t' i (j + 1) = numberText t' i j := by
  refine number_step ?_
  rw [h.row_after (by omega) hj, hp]

/-- In the first block, after at least one row: the table has only the rows read. -/
theorem cut_first_block (hp : p = []) {i n k : Nat} (hk : 1 ≤ k) (hkn : k ≤ n) (hm : i + 2 + k = m) {vals : Nat → Nat → List α} (ho : FirstBlock t i n (vals 0))
    (hl : ∀ r, 1 ≤ r → r ≤ k → (vals 0 r).length ≤ k) :
    OverlapAt t' i k (fun b r => if b = 0 then vals 0 r else []) := by
  obtain ⟨h2, h3, -⟩ := ho
  have hc : Counted t' i k := by
    intro j hj
    rw [cut_numberText h (by omega)]
    exact h2 j (by omega)
  have hrow : ∀ r, 1 ≤ r → r ≤ k → (rowItems t' i k 0 r).mapM fortranNumber = .ok (vals 0 r) := by
    intro r g1 g2
    rw [cut_rowItems h (by show i + 1 + (1 + (r - 5 * 0 - 1)) < m
                           omega)]
    exact h3 r g1 (by omega)
  refine ⟨hk, ⟨hc, fun r g1 g2 => ?_, (k : Int), ?_, by omega⟩, fun b r g1 g2 g3 => ?_⟩
  · dsimp only
    rw [if_pos rfl]; exact hrow r g1 g2
  · rw [cut_number_after h hp (by omega) (by omega)]
    obtain ⟨j, rfl⟩ : ∃ j, k = j + 1 := ⟨k - 1, by omega⟩
    rw [hc j (by omega)]
    norm_cast
  · by_cases hb : b = 0
    · subst hb
      dsimp only
      rw [if_pos rfl]
      exact ⟨hrow r (by omega) g3, by have := hl r (by omega) g3; omega⟩
    · dsimp only
      rw [if_neg hb]
      refine ⟨?_, by simp only [List.length_nil]; omega⟩
      have : rowItems t' i k b r = [] := by
        unfold rowItems
        have := row_in_block k (show 0 < b by omega) (show 5 * 0 < k by omega) (Nat.le_refl k)
        have e : blockLine k 0 = 1 := rfl
        rw [e] at this
        rw [h.row_after (by omega) (by omega), hp]
        exact items_nil (by omega)
      rw [this]
      rfl

/-- After the first block: the rest of the entries is missing. -/
theorem cut_later_block (hp : p = []) {i n : Nat} (hm : i + 2 + n ≤ m) {vals : Nat → Nat → List α} (ho : OverlapAt t i n vals) :
    OverlapAt t' i n (fun b r => if i + 1 + (blockLine n b + (r - 5 * b - 1)) < m then vals b r else []) := by
  obtain ⟨h1, ⟨h2, h3, hz⟩, h6⟩ := ho
  have hc : Counted t' i n := by
    intro j hj
    rw [cut_numberText h (by omega)]
    exact h2 j hj
  have e0 : blockLine n 0 = 1 := rfl
  have hrow : ∀ r, 1 ≤ r → r ≤ n → (rowItems t' i n 0 r).mapM fortranNumber = .ok (vals 0 r) := by
    intro r g1 g2
    rw [cut_rowItems h (by rw [e0]; omega)]
    exact h3 r g1 g2
  refine ⟨h1, ⟨hc, fun r g1 g2 => ?_, ?_⟩, fun b r g1 g2 g3 => ?_⟩
  · dsimp only
    rw [if_pos (by rw [e0]; omega)]
    exact hrow r g1 g2
  · by_cases hx : i + 2 + n < m
    · rw [cut_numberText h (by omega)]
      assumption
    · refine ⟨(n : Int), ?_, by omega⟩
      rw [cut_number_after h hp (by omega) (by omega)]
      obtain ⟨j, rfl⟩ : ∃ j, n = j + 1 := ⟨n - 1, by omega⟩
      rw [hc j (by omega)]
      norm_cast
  · dsimp only
    by_cases hx : i + 1 + (blockLine n b + (r - 5 * b - 1)) < m
    · rw [if_pos hx]
      have := h6 b r g1 g2 g3
      unfold RowFine at this ⊢
      rw [cut_rowItems h hx]
      exact this
    · rw [if_neg hx]
      refine ⟨?_, by simp only [List.length_nil]; omega⟩
      have : rowItems t' i n b r = [] := by
        unfold rowItems
        rw [h.row_after (by omega) (by omega), hp]
        exact items_nil (by omega)
      rw [this]
      rfl

/-- Before the first row: not read at all. -/
theorem cut_no_row (hp : p = []) {i : Nat} (hi : i < m) (hm : m ≤ i + 2) : OverlapFault α t' i (.throws .invalidArgument) := by
  refine .number (n := 0) (vals := fun _ => []) (fun j hj => absurd hj (by omega)) (fun r h1 h2 => absurd h1 (by omega)) ?_
  rw [cut_number_after h hp hi (by omega)]
  rfl

end

/-! ### the entries of a lower triangle -/

omit [Mul α] [Num α] in
theorem mem_cells {n : Nat} {vals : Nat → Nat → List α} {r c : Nat} {v : α} :
    (r, c, v) ∈ LogLines.cells n vals ↔ ∃ b k, 5 * b < r ∧ r ≤ n ∧ c = 5 * b + k + 1 ∧ (vals b r)[k]? = some v := by
  unfold LogLines.cells
  simp only [List.mem_flatMap, List.mem_range, List.mem_map, Prod.mk.injEq]
  constructor
  · rintro ⟨b, hb, q, hq, ⟨w, k⟩, hw, rfl, rfl, rfl⟩
    refine ⟨b, k, by omega, by omega, rfl, ?_⟩
    have := List.mem_zipIdx_iff_getElem?.1 hw
    simpa using this
  · rintro ⟨b, k, h1, h2, rfl, h3⟩
    refine ⟨b, by omega, r - 5 * b - 1, by omega, (v, k), ?_, by omega, rfl, rfl⟩
    have e : 5 * b + (r - 5 * b - 1) + 1 = r := by omega
    rw [e]
    exact List.mem_zipIdx_iff_getElem?.2 (by simpa using h3)

omit [Mul α] [Num α] in
/-- The entry in row `r` and column `c` is number `(c - 1) mod 5` of row `r` of block `(c - 1) / 5`. -/
theorem entry_lower [Zero α] {n : Nat} {vals : Nat → Nat → List α} (hl : LogLines.Lower vals) {r c : Nat} (hc : 1 ≤ c) (hcr : c ≤ r) (hr : r ≤ n) :
    LogLines.entry (LogLines.cells n vals) r c = (vals ((c - 1) / 5) r)[(c - 1) % 5]?.getD 0 := by
  have key : ∀ x : Nat × Nat × α, x ∈ LogLines.cells n vals → ((x.1 = r ∧ x.2.1 = c) ∨ (x.1 = c ∧ x.2.1 = r)) →
      (vals ((c - 1) / 5) r)[(c - 1) % 5]? = some x.2.2 := by
    rintro ⟨r', c', v⟩ hx hm
    obtain ⟨b, k, h1, h2, h3, h4⟩ := mem_cells.1 hx
    have hk := (List.getElem?_eq_some_iff.1 h4).1
    have := hl b r'
    have hrc : r' = r ∧ c' = c := by
      rcases hm with ⟨e1, e2⟩ | ⟨e1, e2⟩
      · exact ⟨e1, e2⟩
      · simp only at e1 e2
        omega
    obtain ⟨rfl, rfl⟩ := hrc
    subst h3
    have e1 : (5 * b + k + 1 - 1) / 5 = b := by omega
    have e2 : (5 * b + k + 1 - 1) % 5 = k := by omega
    rw [e1, e2]
    exact h4
  unfold LogLines.entry
  cases hf : (LogLines.cells n vals).reverse.find? (fun x => (x.1 = r ∧ x.2.1 = c) ∨ (x.1 = c ∧ x.2.1 = r)) with
  | some x =>
    have h1 := List.mem_of_find?_eq_some hf
    have h2 := List.find?_some hf
    rw [key x (List.mem_reverse.1 h1) (by simpa using h2)]
    rfl
  | none =>
    rw [List.find?_eq_none] at hf
    cases hv : (vals ((c - 1) / 5) r)[(c - 1) % 5]? with
    | none => rfl
    | some v =>
      refine absurd ?_ (hf (r, c, v) (List.mem_reverse.2 (mem_cells.2 ⟨(c - 1) / 5, (c - 1) % 5, by omega, hr, by omega, hv⟩)))
      simp

end Verif.CutOff
