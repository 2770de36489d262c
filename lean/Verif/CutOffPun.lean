import Verif.CutOffLemmas
/-
Punch files that are cut off: what is read before the cut.
-/
namespace Verif.CutOff
open Readers Log
open Pun

variable {α : Type} [Mul α] [Num α]

section
variable {t t' : Str} {m : Nat} {p : Str} (h : CutAt t t' m p)
include h

theorem cut_rowLines {count : Option Nat} {i k : Nat} {vals : Nat → List α} (hk : i + k ≤ m) (hr : RowLines t count i k vals) :
    RowLines t' count i k vals := by
  intro j hj
  rw [h.row_before (by omega)]
  exact hr j hj

theorem cut_rowAt {count : Option Nat} {i k : Nat} {row : List α} (hk : i + k < m) (hr : RowAt t count i k row) : RowAt t' count i k row := by
  obtain ⟨vals, h1, h2, h3⟩ := hr
  exact ⟨vals, cut_rowLines h (by omega) h1, h2, by rw [h.row_before hk]; exact h3⟩

omit h in
theorem table_far {spin : Spin} {count : Option Nat} {i : Nat} {rows : List (List α)} {e : Nat} (ht : TableAt t spin count i rows e) : i < e := by
  induction ht with
  | last => omega
  | more _ _ _ ih => omega

theorem cut_table {spin : Spin} {count : Option Nat} {i : Nat} {rows : List (List α)} {e : Nat} (he : e ≤ m) (ht : TableAt t spin count i rows e) :
    TableAt t' spin count i rows e := by
  induction ht with
  | last h1 h2 => exact .last (cut_rowAt h (by omega) h1) (by rw [h.row_before (by omega)]; exact h2)
  | more h1 h2 h3 ih =>
    have := table_far h3
    exact .more (cut_rowAt h (by omega) h1) (by rw [h.row_before (by omega)]; exact h2) (ih he)

omit h in
theorem upto_far {i j : Nat} {d d' : Known α} (hu : Upto t i d j d') : i ≤ j := by
  induction hu with
  | here => exact Nat.le_refl _
  | skip _ _ _ ih => omega
  | table _ _ h3 _ _ ih => have := table_far h3; omega

/-- What is read before the cut is read as before. -/
theorem cut_upto {i j : Nat} {d d' : Known α} (hj : j ≤ m) (hu : Upto t i d j d') : Upto t' i d j d' := by
  induction hu with
  | here => exact .here
  | skip h1 h2 h3 ih =>
    have := upto_far h3
    exact .skip (h.some_line (by omega)) (by rw [h.before (by omega)]; exact h2) (ih hj)
  | table h1 h2 h3 h4 h5 ih =>
    have := upto_far h5
    have := table_far h3
    exact .table (h.some_line (by omega)) (by rw [h.before (by omega)]; exact h2) (cut_table h (by omega) h3) h4 (ih hj)

omit h in
theorem upto_says {i j : Nat} {d d' d'' : Known α} (hu : Upto t i d j d') (hs : Says t j d' d'') : Says t i d d'' := by
  induction hu with
  | here => exact hs
  | skip h1 h2 _ ih => exact .skip h1 h2 (ih hs)
  | table h1 h2 h3 h4 _ ih => exact .table h1 h2 h3 h4 (ih hs)

omit h in
theorem upto_endless {i j : Nat} {d d' : Known α} (hu : Upto t i d j d') (hs : Endless α t j) : Endless α t i := by
  induction hu with
  | here => exact hs
  | skip h1 h2 _ ih => exact .skip h1 h2 (ih hs)
  | table h1 h2 h3 h4 _ ih => exact .table h1 h2 h3 h4 (ih hs)

omit h in
/-- Every file that can be read is read line by line. -/
theorem says_upto {i : Nat} {d d' : Known α} (hs : Says t i d d') : ∃ j, Upto t i d j d' ∧ NoLine t j := by
  induction hs with
  | done hn => exact ⟨_, .here, hn⟩
  | skip h1 h2 _ ih => obtain ⟨j, a, b⟩ := ih; exact ⟨j, .skip h1 h2 a, b⟩
  | table h1 h2 h3 h4 _ ih => obtain ⟨j, a, b⟩ := ih; exact ⟨j, .table h1 h2 h3 h4 a, b⟩

omit h in
theorem orbitals_far {spin : Spin} {count count' : Option Nat} {i j : Nat} {rows : List (List α)} (ho : Orbitals t spin count i rows count' j) : i ≤ j := by
  induction ho with
  | here => exact Nat.le_refl _
  | more _ _ _ ih => omega

theorem cut_orbitals {spin : Spin} {count count' : Option Nat} {i j : Nat} {rows : List (List α)} (hj : j ≤ m) (ho : Orbitals t spin count i rows count' j) :
    Orbitals t' spin count i rows count' j := by
  induction ho with
  | here => exact .here
  | more h1 h2 h3 ih =>
    have := orbitals_far h3
    exact .more (cut_rowAt h (by omega) h1) (by rw [h.row_before (by omega)]; exact h2) (ih hj)

omit h in
theorem orbitals_endless {spin : Spin} {count count' : Option Nat} {i j : Nat} {rows : List (List α)} (ho : Orbitals t spin count i rows count' j)
    (he : EndlessTable α t spin count' j) : EndlessTable α t spin count i := by
  induction ho with
  | here => exact he
  | more h1 h2 _ ih => exact .later h1 h2 (ih he)

omit h in
theorem orbitals_table {spin : Spin} {count count' : Option Nat} {i j e : Nat} {rows rows' : List (List α)} (ho : Orbitals t spin count i rows count' j)
    (he : TableAt t spin count' j rows' e) : TableAt t spin count i (rows ++ rows') e := by
  induction ho with
  | here => exact he
  | more h1 h2 _ ih => exact .more h1 h2 (ih he)

/-- Between tables. -/
theorem cut_between {d : Known α} (hu : Upto t 0 (fun _ => none) m d) (hp : ∀ spin, ¬ Announces p spin) : Says t' 0 (fun _ => none) d := by
  refine upto_says (cut_upto h (Nat.le_refl _) hu) ?_
  by_cases hn : NoLine t' m
  · exact .done hn
  · exact .skip hn (by rw [h.after (Nat.le_refl _)]; exact hp) (.done h.none_after)

omit h in
theorem coefs_nil : (lineCoefs [] : Res (List α)) = .ok [] := rfl

omit h in
theorem together_nil (vals : Nat → List α) (k j : Nat) : together (fun x => if x < k then vals x else []) (k + j) = together vals k := by
  induction j with
  | zero =>
    unfold together
    refine List.flatMap_congr fun x hx => ?_
    rw [List.mem_range] at hx
    simp only [Nat.add_zero] at hx
    rw [if_pos hx]
  | succ j ih =>
    rw [← Nat.add_assoc, together_succ, ih, if_neg (by omega), List.append_nil]

omit h in
theorem together_before (vals : Nat → List α) {k j : Nat} (hj : j ≤ k) : together (fun x => if x < k then vals x else []) j = together vals j := by
  unfold together
  refine List.flatMap_congr fun x hx => ?_
  rw [List.mem_range] at hx
  rw [if_pos (by omega)]

/-- Within an orbital, right after a line end: it never is complete. -/
theorem cut_row (hp : p = []) {count : Option Nat} {i k : Nat} {vals : Nat → List α} (hk : i + k = m) (hr : RowLines t count i k vals)
    (hc : ∀ c, count = some c → (together vals k).length < c) : EndlessRow α t' count i := by
  refine ⟨fun x => if x < k then vals x else [], fun n j hj => ?_⟩
  by_cases hjk : j < k
  · rw [together_before vals (by omega), h.row_before (by omega)]
    simp only [hjk, if_true]
    exact hr j hjk
  · obtain ⟨j, rfl⟩ : ∃ x, j = k + x := ⟨j - k, by omega⟩
    rw [together_nil, h.row_after (by omega) (by omega), hp]
    simp only [hjk, if_false]
    refine ⟨?_, coefs_nil⟩
    rintro (hx | ⟨c, e, hx⟩)
    · obtain ⟨x, y, e⟩ := hx
      have := congrArg List.length e
      simp at this
    · have := hc c e
      omega

/-- In a line of an orbital: that line is read again and again, until there are as many coefficients as in the orbital before. -/
theorem cut_row_again {count k q : Nat} {i : Nat} {vals : Nat → List α} {w : List α} (hk : i + k = m) (hr : RowLines t (some count) i k vals)
    (hp : lineCoefs p = .ok w) (ho : ¬ Contains p (lit " MO OE")) (hq : 1 ≤ q)
    (hw : w ≠ []) (hc : (together vals k).length + q * w.length = count) :
    RowAt t' (some count) i (k + q) (together vals k ++ (List.replicate q w).flatten) := by
  have hl : ∀ j, together (fun x => if x < k then vals x else w) (k + j) = together vals k ++ (List.replicate j w).flatten := by
    intro j
    induction j with
    | zero =>
      rw [List.replicate_zero, List.flatten_nil, List.append_nil, Nat.add_zero]
      unfold together
      refine List.flatMap_congr fun x hx => ?_
      rw [List.mem_range] at hx
      rw [if_pos hx]
    | succ j ih =>
      rw [← Nat.add_assoc, together_succ, ih, if_neg (by omega), List.replicate_succ', List.flatten_append, List.append_assoc]
      simp
  have hw1 : 1 ≤ w.length := List.length_pos_iff.2 hw
  have hlen : ∀ j, (List.replicate j w).flatten.length = j * w.length := by
    intro j
    rw [List.length_flatten, List.map_replicate, List.sum_replicate, smul_eq_mul]
  refine ⟨fun x => if x < k then vals x else w, fun j hj => ?_, (hl q).symm, .inr ⟨count, rfl, ?_⟩⟩
  · by_cases hjk : j < k
    · have e : together (fun x => if x < k then vals x else w) j = together vals j := by
        unfold together
        refine List.flatMap_congr fun x hx => ?_
        rw [List.mem_range] at hx
        rw [if_pos (by omega)]
      rw [e, h.row_before (by omega)]
      simp only [hjk, if_true]
      exact hr j hjk
    · obtain ⟨j, rfl⟩ : ∃ x, j = k + x := ⟨j - k, by omega⟩
      rw [hl, h.row_after (by omega) (by omega)]
      simp only [hjk, if_false]
      refine ⟨?_, hp⟩
      rintro (hx | ⟨c, e, hx⟩)
      · exact ho hx
      · cases e
        rw [List.length_append, hlen] at hx
        have : j * w.length < q * w.length := Nat.mul_lt_mul_of_pos_right (by omega) hw1
        omega
  · rw [List.length_append, hlen, hc]

end

end Verif.CutOff
