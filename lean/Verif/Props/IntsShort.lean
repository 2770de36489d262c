import Verif.Props.IntsRead
/-
Property C133: a short text is modest.
-/
namespace Verif.Ints
open QC Readers Strings LogLines Pun
variable {α : Type} [Mul α] [Num α]

/-! ### how much there is in a text -/

/-- The number of characters in the first `i` lines. -/
def upTo (t : Str) (i : Nat) : Nat := (((textLines t).take i).map List.length).sum

theorem lines_sum (t : Str) : ((textLines t).map List.length).sum + (textLines t).length = t.length + 1 := by
  induction t with
  | nil => rfl
  | cons c t ih =>
    unfold textLines
    split
    · simp only [List.map_cons, List.sum_cons, List.length_cons, List.length_nil]; omega
    · cases h : textLines t with
      | nil => exact absurd h (textLines_ne t)
      | cons l ls =>
        rw [h] at ih
        simp only [List.map_cons, List.sum_cons, List.length_cons] at ih ⊢
        omega

theorem upTo_le (t : Str) (i : Nat) : upTo t i ≤ t.length := by
  have h1 := lines_sum t
  have h2 : 1 ≤ (textLines t).length := by
    cases h : textLines t with
    | nil => exact absurd h (textLines_ne t)
    | cons => simp
  have h3 : ((textLines t).map List.length).sum = upTo t i + (((textLines t).drop i).map List.length).sum := by
    unfold upTo
    rw [← List.sum_append, ← List.map_append, List.take_append_drop]
  omega

theorem upTo_succ {t : Str} {i : Nat} (h : i < (textLines t).length) : upTo t (i + 1) = upTo t i + (lineAt t i).length := by
  unfold upTo lineAt
  rw [List.take_add_one, List.getElem?_eq_getElem h, List.getD_eq_getElem?_getD, List.getElem?_eq_getElem h, List.map_append, List.sum_append]
  simp only [Option.toList_some, List.map_cons, List.map_nil, List.sum_cons, List.sum_nil, Option.getD_some, Nat.add_zero]

theorem upTo_mono {t : Str} {i j : Nat} (h : i ≤ j) : upTo t i ≤ upTo t j := by
  obtain ⟨k, rfl⟩ : ∃ k, j = i + k := ⟨j - i, by omega⟩
  clear h
  induction k with
  | zero => exact Nat.le_refl _
  | succ k ih =>
    by_cases hk : i + k < (textLines t).length
    · rw [show i + (k + 1) = i + k + 1 by omega, upTo_succ hk]; omega
    · have : upTo t (i + (k + 1)) = upTo t (i + k) := by
        unfold upTo
        rw [List.take_of_length_le (by omega), List.take_of_length_le (by omega)]
      omega

theorem lineAt_last {t : Str} {i : Nat} (h : (textLines t).length ≤ i + 1) : lineAt t (i + 1) = lineAt t i := by
  unfold lineAt
  rw [List.getD_eq_getElem?_getD, List.getElem?_eq_none h, Option.getD_none]
  by_cases hi : i < (textLines t).length
  · rw [List.getD_eq_getElem?_getD, List.getElem?_eq_getElem hi, Option.getD_some, List.getLastD_eq_getLast?, List.getLast?_eq_getElem?]
    rw [show (textLines t).length - 1 = i by omega, List.getElem?_eq_getElem hi, Option.getD_some]
  · rw [List.getD_eq_getElem?_getD, List.getElem?_eq_none (by omega), Option.getD_none]

/-! ### log files -/

theorem short_log {t : Str} (h : t.length ≤ 46340) : ModestLog t := by
  refine ⟨by omega, fun ⟨i, hi⟩ => ?_⟩
  have h1 := lines_sum t
  have last : ∀ k, i + k + 1 < (textLines t).length ∨ ¬ k + 1 < 46341 := by
    intro k
    by_contra hc
    push Not at hc
    obtain ⟨w, ws, e1, e2⟩ := hi k (by omega)
    obtain ⟨w', ws', e1', e2'⟩ := hi (k + 1) hc.2
    rw [show i + (k + 1) = i + k + 1 by omega, lineAt_last hc.1, e1] at e1'
    cases e1'
    rw [e2] at e2'
    have := Res.ok.inj e2'
    push_cast at this
    omega
  have := last 46339
  have h0 : 0 < ((textLines t).map List.length).sum := by
    obtain ⟨w, ws, e, -⟩ := hi 0 (by omega)
    have hl : i < (textLines t).length := by omega
    have : 0 < (lineAt t (i + 0)).length := by
      cases hx : lineAt t (i + 0) with
      | nil => rw [hx] at e; cases e
      | cons => simp
    have h2 := upTo_succ hl
    have h3 : upTo t (i + 1) ≤ ((textLines t).map List.length).sum := by
      unfold upTo
      conv => rhs; rw [← List.take_append_drop (i + 1) (textLines t), List.map_append, List.sum_append]
      omega
    rw [Nat.add_zero] at this
    omega
  omega

/-! ### pun files -/

theorem coefs_len {l : Str} {v : List α} (e : lineCoefs l = .ok v) : v.length ≤ l.length := by
  have key : ∀ (fs : List Str) (v : List α), fs.mapM fieldNumber = .ok v → v.length = fs.length := by
    intro fs
    induction fs with
    | nil => intro v e; rw [List.mapM_nil] at e; cases e; rfl
    | cons f fs ih =>
      intro v e
      rw [List.mapM_cons] at e
      obtain ⟨x, -, e⟩ := Res.bind_eq_ok.1 e
      obtain ⟨vs, ev, e⟩ := Res.bind_eq_ok.1 e
      cases e
      simp [ih vs ev]
  have := key _ _ e
  rw [this]
  unfold fields
  rw [List.length_map, List.length_range]
  exact Nat.div_le_self _ _

theorem together_len {t : Str} {count : Option Nat} {i k : Nat} {vals : Nat → List α} (h : RowLines t count i k vals) (hi : i + k ≤ (textLines t).length) (hk : i < (textLines t).length) :
    (together vals k).length + upTo t i ≤ upTo t (i + k) := by
  induction k with
  | zero => simp [together]
  | succ k ih =>
    have := ih (fun j hj => h j (by omega)) (by omega)
    have h2 := coefs_len (h k (by omega)).2
    rw [rowLine, if_pos hk] at h2
    rw [together_succ, List.length_append, show i + (k + 1) = i + k + 1 by omega, upTo_succ (by omega)]
    omega

/-- How long an orbital can be. -/
theorem row_len {t : Str} {count : Option Nat} {i k : Nat} {row : List α} (h : RowAt t count i k row) (hc : ∀ c, count = some c → i < (textLines t).length → c ≤ upTo t i) :
    row.length ≤ 2 * t.length ∧ (i + k + 1 < (textLines t).length → row.length ≤ upTo t (i + k + 1)) := by
  obtain ⟨vals, h1, rfl, h2⟩ := h
  by_cases hi : i < (textLines t).length
  swap
  · -- nothing is left
    have : together vals k = [] := by
      clear h2
      induction k with
      | zero => rfl
      | succ k ih =>
        rw [together_succ, ih fun j hj => h1 j (by omega)]
        have := coefs_len (h1 k (by omega)).2
        rw [rowLine, if_neg hi] at this
        rw [List.nil_append]
        exact List.length_eq_zero_iff.1 (by simpa using this)
    rw [this]
    exact ⟨by simp, fun h => absurd h (by omega)⟩
  by_cases hk : i + k ≤ (textLines t).length
  · have := together_len h1 hk hi
    have := upTo_le t (i + k)
    have := upTo_mono (t := t) (show i + k ≤ i + k + 1 by omega)
    exact ⟨by omega, fun _ => by omega⟩
  -- the last line is read again
  refine ⟨?_, fun h => absurd h (by omega)⟩
  obtain ⟨m, rfl⟩ : ∃ m, k = m + 1 := ⟨k - 1, by omega⟩
  obtain ⟨n1, n2⟩ := h1 m (by omega)
  have hlen := coefs_len n2
  rw [rowLine, if_pos hi] at hlen
  have hl := lineAt_len t (i + m)
  rw [together_succ, List.length_append]
  cases count with
  | some c =>
    have hcc := hc c rfl hi
    have := upTo_le t i
    have : ¬ c ≤ (together vals m).length := fun h => n1 (.inr ⟨c, rfl, h⟩)
    omega
  | none =>
    exfalso
    have same : rowLine t i (m + 1) = rowLine t i m := by
      rw [rowLine, rowLine, if_pos hi, if_pos hi, show i + (m + 1) = i + m + 1 by omega, lineAt_last (by omega)]
    rcases h2 with h2 | ⟨c, e, -⟩
    · rw [same] at h2
      exact n1 (.inl h2)
    · cases e

theorem table_len {t : Str} {spin : Log.Spin} {count : Option Nat} {i e : Nat} {rows : List (List α)} (h : TableAt t spin count i rows e) :
    (∀ c, count = some c → i < (textLines t).length → c ≤ upTo t i) →
    (∀ row ∈ rows, row.length ≤ 2 * t.length) ∧ rows.length ≤ (textLines t).length - i + 1 := by
  induction h with
  | @last count i k row hr hn =>
    intro hc
    refine ⟨fun r hm => ?_, by simp⟩
    rw [List.mem_singleton] at hm
    subst hm
    exact (row_len hr hc).1
  | @more count i k row rows e hr hn _ ih =>
    intro hc
    obtain ⟨r1, r2⟩ := row_len hr hc
    obtain ⟨q1, q2⟩ := ih fun c ec hl => by cases ec; exact r2 hl
    refine ⟨fun r hm => ?_, ?_⟩
    · rcases List.mem_cons.1 hm with rfl | hm
      · exact r1
      · exact q1 r hm
    · have : i < (textLines t).length := by
        by_contra hx
        rw [rowLine, if_neg hx] at hn
        exact spin_not_nil spin hn
      rw [List.length_cons]
      omega

theorem short_pun {t : Str} (h : t.length ≤ 23170) : ModestPun α t := by
  refine ⟨by omega, fun spin i e rows ht => ?_⟩
  obtain ⟨q1, q2⟩ := table_len ht fun c ec => by cases ec
  have := lines_sum t
  exact ⟨by omega, fun row hr => by have := q1 row hr; omega⟩

/-- **C133 (short files).** Every text of at most 23170 characters is modest. -/
theorem C133_short {t : Str} (h : t.length ≤ 23170) : ModestLog t ∧ ModestPun α t := ⟨short_log (by omega), short_pun h⟩

end Verif.Ints
