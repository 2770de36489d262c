import Verif.Spec.PunLines
import Verif.Props.Coords
import Verif.Props.ReadersPun
import Verif.Props.Fuel
/-
Property C119: a punch file, whatever is in it.
-/
namespace Verif.Readers
open Strings Log Pun Mat

variable {α : Type} [Mul α] [Num α]

/-! ### a line -/

theorem trimmed_eq (s : Str) : trimmed s = strip s := rfl

theorem mapM_cons_fields (l : Str) (h : 15 ≤ l.length) :
    (lineCoefs l : Res (List α)) = fieldNumber (l.take 15) >>= fun v => lineCoefs (l.drop 15) >>= fun vs => .ok (v :: vs) := by
  unfold lineCoefs fields
  obtain ⟨n, hn⟩ : ∃ n, l.length / 15 = n + 1 := ⟨l.length / 15 - 1, by omega⟩
  have hd : (l.drop 15).length / 15 = n := by rw [List.length_drop]; omega
  rw [hn, hd, List.range_succ_eq_map]
  simp only [List.map_cons, Nat.mul_zero, List.drop_zero, List.map_map, List.mapM_cons, Function.comp_def]
  congr 1
  funext v
  have : ∀ k, List.drop (15 * (k + 1)) l = List.drop (15 * k) (List.drop 15 l) := by
    intro k; rw [List.drop_drop]; congr 1; omega
  simp only [Nat.succ_eq_add_one, this]
  rfl

theorem gausLoop_eq (l : Str) (hfit : Fits l) : ∀ (n : Nat) (fuel indent : Nat) (acc : List α), l.length - indent ≤ n → indent ≤ l.length →
    (l.length - indent) / 15 < fuel → gausLoop l fuel indent acc = lineCoefs (l.drop indent) >>= fun vs => .ok (acc ++ vs) := by
  intro n
  induction n with
  | zero =>
    intro fuel indent acc h1 h2 h3
    obtain ⟨fuel, rfl⟩ : ∃ k, fuel = k + 1 := ⟨fuel - 1, by omega⟩
    have e : List.drop indent l = [] := List.drop_eq_nil_of_le (by omega)
    rw [gausLoop, if_neg (by unfold Fits at hfit; unfold toSize; omega), e]
    have : (lineCoefs [] : Res (List α)) = .ok [] := rfl
    rw [this]
    simp
  | succ n ih =>
    intro fuel indent acc h1 h2 h3
    obtain ⟨fuel, rfl⟩ : ∃ k, fuel = k + 1 := ⟨fuel - 1, by omega⟩
    unfold Fits at hfit
    rw [gausLoop]
    by_cases hc : 15 ≤ l.length - indent
    · rw [if_pos (by unfold toSize; omega), mapM_cons_fields (l.drop indent) (by rw [List.length_drop]; exact hc)]
      rw [substr_ok (by omega), substr_ok (by omega)]
      simp only [Res.ok_bind]
      have ihe := fun acc => ih fuel (indent + 15) acc (by omega) (by omega) (by
        have : (l.length - indent) / 15 = (l.length - (indent + 15)) / 15 + 1 := by omega
        omega)
      simp only [ihe, fieldNumber, List.drop_drop, bind_assoc, Res.ok_bind, trimmed_eq]
      have e1 : List.take 11 (List.drop (0 + indent) l) = List.take 11 (List.take 15 (List.drop indent l)) := by
        rw [List.take_take, Nat.zero_add]; rfl
      have e2 : List.take 3 (List.drop (12 + indent) l) = List.drop 12 (List.take 15 (List.drop indent l)) := by
        rw [List.drop_take, List.drop_drop, Nat.add_comm indent 12]
      rw [e1, e2]
      simp only [List.append_assoc, List.singleton_append]
    · rw [if_neg (by unfold toSize; omega)]
      have : (lineCoefs (l.drop indent) : Res (List α)) = .ok [] := by
        unfold lineCoefs fields
        rw [List.length_drop, Nat.div_eq_of_lt (by omega)]
        rfl
      rw [this]
      simp

theorem readGausCoefLine_eq (l : Str) (hfit : Fits l) : (readGausCoefLine l : Res (List α)) = lineCoefs l := by
  unfold readGausCoefLine
  rw [gausLoop_eq l hfit l.length (l.length + 1) 0 [] (by omega) (by omega) (by omega)]
  rw [List.drop_zero]
  cases (lineCoefs l : Res (List α)) <;> rfl

theorem lineCoefs_cases (l : Str) : (∃ v : List α, lineCoefs l = .ok v) ∨ ∃ e, (lineCoefs l : Res (List α)) = .throw e := by
  unfold lineCoefs
  induction fields l with
  | nil => exact .inl ⟨[], rfl⟩
  | cons f fs ih =>
    rw [List.mapM_cons]
    have hv : (∃ v : α, fieldNumber f = .ok v) ∨ ∃ e, (fieldNumber f : Res α) = .throw e := by
      unfold fieldNumber
      rcases Num.stod_cases (α := α) (strip (f.take 11)) with ⟨v, h⟩ | ⟨e, h⟩
      · rcases Num.stod_cases (α := α) (strip (f.drop 12)) with ⟨w, h'⟩ | ⟨e, h'⟩
        · exact .inl ⟨v * Num.pow10 w, by rw [h, h']; rfl⟩
        · exact .inr ⟨e, by rw [h, h']; rfl⟩
      · exact .inr ⟨e, by rw [h]; rfl⟩
    rcases hv with ⟨v, h⟩ | ⟨e, h⟩
    · rcases ih with ⟨w, h'⟩ | ⟨e, h'⟩
      · exact .inl ⟨v :: w, by rw [h, h']; rfl⟩
      · exact .inr ⟨e, by rw [h, h']; rfl⟩
    · exact .inr ⟨e, by rw [h]; rfl⟩

/-! ### an orbital -/

/-- The stream before line `i`. -/
def At (t : Str) (i : Nat) (fid : Stream) : Prop :=
  (∃ pre rest, textLines t = pre ++ textLines rest ∧ pre.length = i ∧ fid = openText rest) ∨
    ((fid.eof = true ∨ fid.fail = true) ∧ (textLines t).length ≤ i)

theorem together_succ (vals : Nat → List α) (k : Nat) : together vals (k + 1) = together vals k ++ vals k := by
  unfold together
  rw [List.range_succ, List.flatMap_append]
  simp

/-- Whether the loop stops before the line. -/
theorem complete_iff (count : Option Nat) (l : Str) (row : List α) :
    Complete count l row ↔ (foundSubStrInStr l moPattern = true ∨ (count.isSome && decide (row.length ≥ count.getD 0)) = true) := by
  unfold Complete moPattern
  rw [found_contains]
  cases count <;> simp

theorem rowLoop_step (count : Option Nat) (fuel : Nat) (fid : Stream) (line : Str) (row : List α) (hfit : Fits line) :
    (Complete count line row → rowLoop count.isSome (count.getD 0) (fuel + 1) fid line row = .ok (fid, line, row)) ∧
    (¬ Complete count line row → rowLoop count.isSome (count.getD 0) (fuel + 1) fid line row =
      lineCoefs line >>= fun coef => rowLoop count.isSome (count.getD 0) fuel (getline fid line).2 (getline fid line).1 (row ++ coef)) := by
  rw [complete_iff, rowLoop, readGausCoefLine_eq line hfit]
  constructor
  · rintro (h | h)
    · rw [if_pos h]
    · by_cases h' : foundSubStrInStr line moPattern = true
      · rw [if_pos h']
      · rw [if_neg h', if_pos h]
  · intro h
    rw [if_neg (fun h' => h (.inl h')), if_neg (fun h' => h (.inr h'))]

/-- All lines of a text are short enough. -/
def AllFit (t : Str) : Prop := ∀ j, Fits (lineAt t j)

theorem textLines_len (t : Str) : ∀ l ∈ textLines t, l.length ≤ t.length := by
  induction t with
  | nil => simp [textLines]
  | cons c t ih =>
    unfold textLines
    split
    · intro l hl
      rcases List.mem_cons.1 hl with rfl | hl
      · simp
      · have := ih l hl; simp only [List.length_cons]; omega
    · cases h : textLines t with
      | nil => intro l hl; simp only [List.mem_singleton] at hl; subst hl; simp
      | cons a ls =>
        rw [h] at ih
        intro l hl
        rcases List.mem_cons.1 hl with rfl | hl
        · have := ih a (by simp); simp only [List.length_cons]; omega
        · have := ih l (by simp [hl]); simp only [List.length_cons]; omega

theorem lineAt_len (t : Str) (j : Nat) : (lineAt t j).length ≤ t.length := by
  unfold lineAt
  rw [List.getD_eq_getElem?_getD]
  cases h : (textLines t)[j]? with
  | some l => exact textLines_len t l (List.mem_of_getElem? h)
  | none =>
    rw [Option.getD_none, List.getLastD_eq_getLast?, List.getLast?_eq_some_getLast (textLines_ne t)]
    exact textLines_len t _ (List.getLast_mem _)

theorem allFit_of {t : Str} (h : Fits t) : AllFit t := fun j => by
  have := lineAt_len t j
  unfold Fits at h ⊢
  omega

/-- The lines and streams of a row, in turn. -/
theorem row_feed (t : Str) (i : Nat) (fid : Stream) (h : At t i fid) (hfit : AllFit t) :
    ∃ fids : Nat → Stream, getline fid [] = (rowLine t i 0, fids 0) ∧ (∀ j, getline (fids j) (rowLine t i j) = (rowLine t i (j + 1), fids (j + 1))) ∧
      (∀ j, At t (i + j + 1) (fids j)) ∧ ∀ j, Fits (rowLine t i j) := by
  by_cases hi : i < (textLines t).length
  · rcases h with ⟨pre, rest, e, hp, rfl⟩ | ⟨-, hl⟩
    swap
    · omega
    let step : Nat → Str × Stream := fun j => Nat.rec (getline (openText rest) []) (fun _ x => getline x.2 x.1) j
    have hf : ∀ j, Feeding t (i + j) (step j).1 (step j).2 := by
      intro j
      induction j with
      | zero =>
        obtain ⟨h1, h2⟩ := feeding_start rest []
        refine ⟨?_, ?_⟩
        · show (getline (openText rest) []).1 = _
          rw [h1, ← hp]
          obtain ⟨l, ls, e'⟩ : ∃ l ls, textLines rest = l :: ls := by
            cases h : textLines rest with
            | nil => exact absurd h (textLines_ne rest)
            | cons l ls => exact ⟨l, ls, rfl⟩
          rw [e'] at e
          rw [show pre.length + 0 = pre.length from rfl, lineAt_at e, show (0 : Nat) = ([] : List Str).length from rfl, lineAt_at (pre := []) e']
        · rcases h2 with ⟨pre', rest', e', hp', ef⟩ | ⟨hb, hn⟩
          · exact .inl ⟨pre ++ pre', rest', by rw [e, e', List.append_assoc], by rw [List.length_append]; omega, ef⟩
          · exact .inr ⟨hb, by rw [e, List.length_append]; omega⟩
      | succ j ih => exact ih.next
    have er : ∀ j, rowLine t i j = (step j).1 := by
      intro j
      rw [rowLine, if_pos hi]
      exact (hf j).1.symm
    refine ⟨fun j => (step j).2, ?_, ?_, fun j => (hf j).2, fun j => ?_⟩
    · rw [er]; rfl
    · intro j; rw [er, er]
    · rw [rowLine, if_pos hi]; exact hfit _
  · rcases h with ⟨pre, rest, e, hp, rfl⟩ | ⟨hb, hl⟩
    · exfalso
      have : (textLines rest).length ≠ 0 := by
        intro h; exact textLines_ne rest (List.length_eq_zero_iff.1 h)
      rw [e, List.length_append] at hi
      omega
    · refine ⟨fun _ => { fid with fail := true }, ?_, ?_, fun j => .inr ⟨.inr rfl, by omega⟩, fun j => ?_⟩
      · rw [getline_bad hb, rowLine, if_neg hi]
      · intro j
        rw [getline_bad (.inr rfl), rowLine, if_neg hi, rowLine, if_neg hi]
      · rw [rowLine, if_neg hi]; unfold Fits; simp

section
variable {t : Str} {i : Nat} {fids : Nat → Stream} (hg : ∀ j, getline (fids j) (rowLine t i j) = (rowLine t i (j + 1), fids (j + 1)))
  (hft : ∀ j, Fits (rowLine t i j)) (count : Option Nat)
include hg hft

theorem rowLoop_lines {k : Nat} {vals : Nat → List α} (h : RowLines t count i k vals) (fuel : Nat) :
    rowLoop count.isSome (count.getD 0) (fuel + k) (fids 0) (rowLine t i 0) [] =
      rowLoop count.isSome (count.getD 0) fuel (fids k) (rowLine t i k) (together vals k) := by
  induction k generalizing fuel with
  | zero => rfl
  | succ k ih =>
    have := ih (fun j hj => h j (by omega)) (fuel + 1)
    rw [show fuel + (k + 1) = fuel + 1 + k by omega, this]
    obtain ⟨h1, h2⟩ := h k (by omega)
    rw [(rowLoop_step count fuel (fids k) (rowLine t i k) (together vals k) (hft k)).2 h1, h2, Res.ok_bind, hg k, together_succ]

theorem rowLoop_row {k : Nat} {row : List α} (h : RowAt t count i k row) (fuel : Nat) :
    rowLoop count.isSome (count.getD 0) (fuel + k + 1) (fids 0) (rowLine t i 0) [] = .ok (fids k, rowLine t i k, row) := by
  obtain ⟨vals, h1, rfl, h2⟩ := h
  rw [show fuel + k + 1 = (fuel + 1) + k by omega, rowLoop_lines hg hft count h1]
  exact (rowLoop_step count fuel _ _ _ (hft k)).1 h2

theorem rowLoop_bad {e : Exn} {k : Nat} {vals : Nat → List α} (h1 : RowLines t count i k vals)
    (h2 : ¬ Complete count (rowLine t i k) (together vals k)) (h3 : (lineCoefs (rowLine t i k) : Res (List α)) = .throw e) (fuel : Nat) :
    (rowLoop count.isSome (count.getD 0) (fuel + (k + 1)) (fids 0) (rowLine t i 0) [] : Res (Stream × Str × List α)) = .throw e := by
  rw [show fuel + (k + 1) = (fuel + 1) + k by omega, rowLoop_lines hg hft count h1, (rowLoop_step count fuel _ _ _ (hft k)).2 h2, h3]
  rfl

theorem rowLoop_endless (h : EndlessRow α t count i) (fuel : Nat) :
    (rowLoop count.isSome (count.getD 0) fuel (fids 0) (rowLine t i 0) [] : Res (Stream × Str × List α)) = .diverge := by
  obtain ⟨vals, h⟩ := h
  have := rowLoop_lines hg hft count (h fuel) 0
  rw [Nat.zero_add] at this
  rw [this]
  rfl

end

/-! ### a table -/

theorem found_iff {l p : Str} : (!foundSubStrInStr l p) = true ↔ ¬ Contains l p := by
  rw [Bool.not_eq_true', ← Bool.not_eq_true, found_contains]

theorem coefLoop_succ (spin : Str) (fuel : Nat) (count : Option Nat) (fid : Stream) (v : List (List α)) :
    coefLoop spin (fuel + 1) count.isSome (count.getD 0) fid v =
      rowLoop count.isSome (count.getD 0) fuel (getline fid []).2 (getline fid []).1 [] >>= fun x =>
        if (!foundSubStrInStr x.2.1 spin) = true then .ok (x.1, v ++ [x.2.2])
        else coefLoop spin fuel true x.2.2.length x.1 (v ++ [x.2.2]) := by
  conv => lhs; unfold coefLoop

theorem coefLoop_table {t : Str} (hfit : AllFit t) {spin : Spin} {count : Option Nat} {i : Nat} {rows : List (List α)} {e : Nat}
    (h : TableAt t spin count i rows e) : ∃ N, ∀ (v : List (List α)) (fid : Stream), At t i fid → ∃ fid', At t e fid' ∧
      ∀ fuel, N ≤ fuel → coefLoop spin.name fuel count.isSome (count.getD 0) fid v = .ok (fid', v ++ rows) := by
  induction h with
  | @last count i k row hr hn =>
    refine ⟨k + 2, fun v fid ha => ?_⟩
    obtain ⟨fids, e0, e1, e2, e3⟩ := row_feed t i fid ha hfit
    refine ⟨fids k, e2 k, fun fuel hf => ?_⟩
    obtain ⟨m, rfl⟩ : ∃ m, fuel = m + k + 1 + 1 := ⟨fuel - k - 2, by omega⟩
    rw [coefLoop_succ, e0, rowLoop_row e1 e3 count hr m, Res.ok_bind, if_pos (found_iff.2 hn)]
  | @more count i k row rows e hr hn _ ih =>
    obtain ⟨N, ih⟩ := ih
    refine ⟨max (k + 2) (N + 1), fun v fid ha => ?_⟩
    obtain ⟨fids, e0, e1, e2, e3⟩ := row_feed t i fid ha hfit
    obtain ⟨fid', h1, h2⟩ := ih (v ++ [row]) (fids k) (e2 k)
    refine ⟨fid', h1, fun fuel hf => ?_⟩
    obtain ⟨m, rfl⟩ : ∃ m, fuel = m + k + 1 + 1 := ⟨fuel - k - 2, by omega⟩
    rw [coefLoop_succ, e0, rowLoop_row e1 e3 count hr m, Res.ok_bind, if_neg (by rw [found_iff]; exact fun h => h hn)]
    have := h2 (m + k + 1) (by omega)
    simp only [Option.isSome_some, Option.getD_some] at this
    rw [this, List.append_assoc, List.singleton_append]

theorem coefLoop_bad {t : Str} (hfit : AllFit t) {spin : Spin} {count : Option Nat} {i : Nat} {e : Exn}
    (h : BadTable α t spin count i e) : ∃ N, ∀ (v : List (List α)) (fid : Stream), At t i fid →
      ∀ fuel, N ≤ fuel → coefLoop spin.name fuel count.isSome (count.getD 0) fid v = .throw e := by
  induction h with
  | @here count i e hr =>
    obtain ⟨k, vals, h1, h2, h3⟩ := hr
    refine ⟨k + 2, fun v fid ha fuel hf => ?_⟩
    obtain ⟨fids, e0, e1, e2, e3⟩ := row_feed t i fid ha hfit
    obtain ⟨m, rfl⟩ : ∃ m, fuel = m + (k + 1) + 1 := ⟨fuel - k - 2, by omega⟩
    rw [coefLoop_succ, e0, rowLoop_bad e1 e3 count h1 h2 h3 m]
    rfl
  | @later count i k e row hr hn _ ih =>
    obtain ⟨N, ih⟩ := ih
    refine ⟨max (k + 2) (N + 1), fun v fid ha fuel hf => ?_⟩
    obtain ⟨fids, e0, e1, e2, e3⟩ := row_feed t i fid ha hfit
    obtain ⟨m, rfl⟩ : ∃ m, fuel = m + k + 1 + 1 := ⟨fuel - k - 2, by omega⟩
    rw [coefLoop_succ, e0, rowLoop_row e1 e3 count hr m, Res.ok_bind, if_neg (by rw [found_iff]; exact fun h => h hn)]
    exact ih (v ++ [row]) (fids k) (e2 k) (m + k + 1) (by omega)

theorem coefLoop_endless {t : Str} (hfit : AllFit t) {spin : Spin} {count : Option Nat} {i : Nat}
    (h : EndlessTable α t spin count i) : ∀ (v : List (List α)) (fid : Stream), At t i fid →
      ∀ fuel, coefLoop spin.name fuel count.isSome (count.getD 0) fid v = .diverge := by
  induction h with
  | @here count i hr =>
    intro v fid ha fuel
    obtain ⟨fids, e0, e1, e2, e3⟩ := row_feed t i fid ha hfit
    cases fuel with
    | zero => rfl
    | succ fuel => rw [coefLoop_succ, e0, rowLoop_endless e1 e3 count hr fuel]; rfl
  | @later count i k row hr hn _ ih =>
    intro v fid ha fuel
    obtain ⟨fids, e0, e1, e2, e3⟩ := row_feed t i fid ha hfit
    by_cases hm : coefLoop spin.name fuel count.isSome (count.getD 0) fid v = .diverge
    · exact hm
    · have h1 := coefLoop_mono spin.name fuel (fuel + k + 1 + 1) (by omega) count.isSome (count.getD 0) fid v hm
      rw [coefLoop_succ, e0, rowLoop_row e1 e3 count hr fuel, Res.ok_bind, if_neg (by rw [found_iff]; exact fun h => h hn)] at h1
      have := ih (v ++ [row]) (fids k) (e2 k) (fuel + k + 1)
      simp only [Option.isSome_some, Option.getD_some] at this
      rw [this] at h1
      exact absurd h1.symm hm

/-! ### the whole file -/

/-- What `read` leaves, from some place on. -/
def onward (fuel : Nat) (r : FR (PunData α)) (line : Str) : Res (PunData α) := readLoop punSections fuel r line >>= fun r => .ok r.data

theorem At.tellg {t : Str} {i : Nat} {fid : Stream} (h : At t i fid) : At t i (tellg fid).2 := by
  unfold Readers.tellg
  split
  · rename_i hb
    rcases h with ⟨pre, rest, -, -, rfl⟩ | ⟨-, hn⟩
    · cases hb
    · exact .inr ⟨.inr rfl, hn⟩
  · exact h

theorem At.getline_none {t : Str} {i : Nat} {fid : Stream} (h : At t i fid) (hn : NoLine t i) (prev : Str) : (getline fid prev).2.fail = true := by
  rcases h with ⟨pre, rest, e, hp, rfl⟩ | ⟨hb, -⟩
  · have hlen : (textLines t).length = i + (textLines rest).length := by rw [e, List.length_append, hp]
    have hpos : (textLines rest).length ≠ 0 := fun h => textLines_ne rest (List.length_eq_zero_iff.1 h)
    rcases hn with hn | ⟨hn, hl⟩
    · omega
    · rcases text_cases rest with rfl | ⟨hne, hl'⟩ | ⟨l, r, hl', rfl⟩
      · rw [getline_end]
      · rw [textLines_last hl'] at e
        rw [← hp, lineAt_at e] at hl
        exact absurd hl hne
      · rw [textLines_line hl', List.length_cons] at hlen
        have : (textLines r).length ≠ 0 := fun h => textLines_ne r (List.length_eq_zero_iff.1 h)
        omega
  · rw [getline_bad hb]

theorem At.getline_some {t : Str} {i : Nat} {fid : Stream} (h : At t i fid) (hn : ¬ NoLine t i) (prev : Str) :
    ∃ fid', getline fid prev = (lineAt t i, fid') ∧ fid'.fail = false ∧ At t (i + 1) fid' := by
  rcases h with ⟨pre, rest, e, hp, rfl⟩ | ⟨-, hl⟩
  · have hlen : (textLines t).length = i + (textLines rest).length := by rw [e, List.length_append, hp]
    rcases text_cases rest with rfl | ⟨hne, hl'⟩ | ⟨l, r, hl', rfl⟩
    · exfalso
      refine hn (.inr ⟨hlen, ?_⟩)
      rw [← hp]
      exact lineAt_at (ls := []) e
    · rw [textLines_last hl'] at e hlen
      refine ⟨⟨[], true, false⟩, ?_, rfl, .inr ⟨.inl rfl, by rw [hlen]; exact Nat.le_refl _⟩⟩
      rw [getline_last hl' hne, ← hp, lineAt_at e]
    · rw [textLines_line hl'] at e
      refine ⟨openText r, ?_, rfl, .inl ⟨pre ++ [l], r, by rw [e]; simp, by simp [hp], rfl⟩⟩
      rw [getline_line hl', ← hp, lineAt_at e]
  · exact absurd (.inl hl) hn

theorem onward_none {t : Str} {i : Nat} {r : FR (PunData α)} (h : At t i r.fid) (hn : NoLine t i) (line : Str) (fuel : Nat) :
    onward (fuel + 1) r line = .ok r.data := by
  have := h.getline_none hn line
  unfold onward readLoop
  cases hg : getline r.fid line with
  | mk l fid =>
    rw [hg] at this
    simp only [] at this ⊢
    rw [if_pos this]
    rfl

theorem onward_skip {t : Str} {i : Nat} {r : FR (PunData α)} (h : At t i r.fid) (hn : ¬ NoLine t i)
    (ha : ∀ spin, ¬ Announces (lineAt t i) spin) (line : Str) : ∃ r' : FR (PunData α), At t (i + 1) r'.fid ∧ r'.data = r.data ∧
      ∀ fuel, onward (fuel + 1) r line = onward fuel r' (lineAt t i) := by
  obtain ⟨fid', hg, hf, hat⟩ := h.getline_some hn line
  refine ⟨{ r with fid := (Readers.tellg fid').2, pos := (Readers.tellg fid').1 }, hat.tellg, rfl, fun fuel => ?_⟩
  have hs : startSection (punSections (α := α)).headers (lineAt t i) = [] := by
    refine pun_start_plain ⟨lineAt_isLine t i, ha .alpha, fun hb => ha .beta ⟨ha .alpha, hb⟩⟩
  unfold onward
  conv => lhs; rw [readLoop]
  simp only [hg, hf, Bool.false_eq_true, if_false, hs, ne_eq, not_true, Res.ok_bind]

theorem onward_table {t : Str} {i : Nat} {r : FR (PunData α)} (h : At t i r.fid) (hn : ¬ NoLine t i) {spin : Spin}
    (ha : Announces (lineAt t i) spin) (line : Str) : ∃ r' : FR (PunData α), At t (i + 1) r'.fid ∧ r'.data = r.data ∧
      ∀ fuel, onward (fuel + 1) r line = readCoef spin.name fuel r' >>= fun x =>
        onward fuel { x with fid := (Readers.tellg x.fid).2, pos := (Readers.tellg x.fid).1 } (lineAt t i) := by
  obtain ⟨fid', hg, hf, hat⟩ := h.getline_some hn line
  refine ⟨{ r with fid := fid' }, hat, rfl, fun fuel => ?_⟩
  have hc : Contains (lineAt t i) ((lit " 1 ") ++ spin.name ++ (lit " MO ")) := by
    cases spin
    · exact ha
    · exact ha.2
  have hs := pun_start (α := α) hc (by rintro rfl; exact ha.1)
  unfold onward
  conv => lhs; rw [readLoop]
  simp only [hg, hf, Bool.false_eq_true, if_false, hs]
  have hsec : ∀ r : FR (PunData α), readSection punSections fuel (spinTag spin) r = readCoef spin.name fuel r := by
    intro r
    cases spin <;> rfl
  rw [if_pos (by cases spin <;> decide), hsec, bind_assoc]

theorem even_iff {rows : List (List α)} (hne : rows ≠ []) :
    (SameLength rows → ∃ m, ofVecVec rows = .ok m) ∧ (¬ SameLength rows → ofVecVec rows = .throw .invalidArgument) := by
  cases rows with
  | nil => exact absurd rfl hne
  | cons v vs =>
    constructor
    · intro h
      obtain ⟨m, hm, -⟩ := (C04_ofVecVec (v :: vs)).2.2 v rfl h
      exact ⟨m, hm⟩
    · intro h
      refine (C04_ofVecVec (v :: vs)).2.1 v rfl (Classical.byContradiction fun hc => h fun w hw => ?_)
      exact Classical.byContradiction fun hx => hc ⟨w, hw, hx⟩

theorem table_ne {t : Str} {spin : Spin} {count : Option Nat} {i : Nat} {rows : List (List α)} {e : Nat}
    (h : TableAt t spin count i rows e) : rows ≠ [] := by cases h <;> simp

/-- What the reader holds is what is known. -/
def Matches (D : PunData α) (d : Known α) : Prop :=
  (∀ spin : Spin, (d spin = none → D.get spin.name = none) ∧ ∀ rows, d spin = some rows → ∃ m, D.get spin.name = some m ∧ ofVecVec rows = .ok m) ∧
    punKeys D = spinKeys (d .alpha).isSome (d .beta).isSome

theorem Matches.set {D : PunData α} {d : Known α} (h : Matches D d) (spin : Spin) {rows : List (List α)} {m : Mat α} (hm : ofVecVec rows = .ok m) :
    Matches (D.set spin.name m) (fun s => if s = spin then some rows else d s) := by
  refine ⟨fun s => ?_, ?_⟩
  · by_cases hs : s = spin
    · subst hs
      simp only [if_true]
      refine ⟨fun h => (by cases h), fun rows' e => ⟨m, Map.get_set_self _ _ _, ?_⟩⟩
      cases e
      exact hm
    · have hk : s.name ≠ spin.name := fun e => hs (spin_inj e)
      simp only [hs, if_false]
      rw [Map.get_set_ne _ hk]
      exact h.1 s
  · rw [punKeys_spin h.2 spin m]
    cases spin <;> simp

theorem readCoef_says {t : Str} (hfit : AllFit t) {spin : Spin} {i : Nat} {rows : List (List α)} {e : Nat}
    (h : TableAt t spin none i rows e) : ∃ N, ∀ r : FR (PunData α), At t i r.fid → ∃ fid', At t e fid' ∧
      ∀ fuel, N ≤ fuel → readCoef spin.name fuel r = ofVecVec rows >>= fun m => .ok { r with fid := fid', data := r.data.set spin.name m } := by
  obtain ⟨N, hN⟩ := coefLoop_table hfit h
  refine ⟨N, fun r hr => ?_⟩
  obtain ⟨fid', h1, h2⟩ := hN [] r.fid hr
  refine ⟨fid', h1, fun fuel hf => ?_⟩
  have := h2 fuel hf
  simp only [Option.isSome_none, Option.getD_none, List.nil_append] at this
  unfold readCoef
  rw [this]
  rfl

theorem onward_says {t : Str} (hfit : AllFit t) {i : Nat} {d d' : Known α} (h : Says t i d d') : ∃ N, ∀ (r : FR (PunData α)) (line : Str),
    At t i r.fid → Matches r.data d → ∃ D', Matches D' d' ∧ ∀ fuel, N ≤ fuel → onward fuel r line = .ok D' := by
  induction h with
  | @done i d hn =>
    refine ⟨1, fun r line hr hm => ⟨r.data, hm, fun fuel hf => ?_⟩⟩
    obtain ⟨k, rfl⟩ : ∃ k, fuel = k + 1 := ⟨fuel - 1, by omega⟩
    exact onward_none hr hn line k
  | @skip i d d' hn ha _ ih =>
    obtain ⟨N, ih⟩ := ih
    refine ⟨N + 1, fun r line hr hm => ?_⟩
    obtain ⟨r', h1, h2, h3⟩ := onward_skip hr hn ha line
    obtain ⟨D', h4, h5⟩ := ih r' (lineAt t i) h1 (h2 ▸ hm)
    refine ⟨D', h4, fun fuel hf => ?_⟩
    obtain ⟨k, rfl⟩ : ∃ k, fuel = k + 1 := ⟨fuel - 1, by omega⟩
    rw [h3, h5 k (by omega)]
  | @table i d d' spin rows e hn ha ht he _ ih =>
    obtain ⟨N, ih⟩ := ih
    obtain ⟨M, hM⟩ := readCoef_says hfit ht
    obtain ⟨m, hm⟩ := (even_iff (table_ne ht)).1 he
    refine ⟨max N M + 1, fun r line hr hd => ?_⟩
    obtain ⟨r', h1, h2, h3⟩ := onward_table hr hn ha line
    obtain ⟨fid', h4, h5⟩ := hM r' h1
    obtain ⟨D', h6, h7⟩ := ih { r' with fid := (Readers.tellg fid').2, pos := (Readers.tellg fid').1, data := r'.data.set spin.name m }
      (lineAt t i) h4.tellg (by simp only [h2]; exact hd.set spin hm)
    refine ⟨D', h6, fun fuel hf => ?_⟩
    obtain ⟨k, rfl⟩ : ∃ k, fuel = k + 1 := ⟨fuel - 1, by omega⟩
    rw [h3, h5 k (by omega), hm]
    simp only [Res.ok_bind]
    exact h7 k (by omega)

theorem onward_fails {t : Str} (hfit : AllFit t) {i : Nat} {e : Exn} (h : Fails α t i e) : ∃ N, ∀ (r : FR (PunData α)) (line : Str),
    At t i r.fid → ∀ fuel, N ≤ fuel → onward fuel r line = .throw e := by
  induction h with
  | @bad i spin e hn ha hb =>
    obtain ⟨N, hN⟩ := coefLoop_bad hfit hb
    refine ⟨N + 1, fun r line hr fuel hf => ?_⟩
    obtain ⟨r', h1, h2, h3⟩ := onward_table hr hn ha line
    obtain ⟨k, rfl⟩ : ∃ k, fuel = k + 1 := ⟨fuel - 1, by omega⟩
    have := hN [] r'.fid h1 k (by omega)
    simp only [Option.isSome_none, Option.getD_none] at this
    rw [h3, readCoef, this]
    rfl
  | @uneven i spin e rows hn ha ht he =>
    obtain ⟨M, hM⟩ := readCoef_says hfit ht
    refine ⟨M + 1, fun r line hr fuel hf => ?_⟩
    obtain ⟨r', h1, h2, h3⟩ := onward_table hr hn ha line
    obtain ⟨fid', h4, h5⟩ := hM r' h1
    obtain ⟨k, rfl⟩ : ∃ k, fuel = k + 1 := ⟨fuel - 1, by omega⟩
    rw [h3, h5 k (by omega), (even_iff (table_ne ht)).2 he]
    rfl
  | @skip i e hn ha _ ih =>
    obtain ⟨N, ih⟩ := ih
    refine ⟨N + 1, fun r line hr fuel hf => ?_⟩
    obtain ⟨r', h1, h2, h3⟩ := onward_skip hr hn ha line
    obtain ⟨k, rfl⟩ : ∃ k, fuel = k + 1 := ⟨fuel - 1, by omega⟩
    rw [h3, ih r' _ h1 k (by omega)]
  | @table i spin k0 e rows hn ha ht he _ ih =>
    obtain ⟨N, ih⟩ := ih
    obtain ⟨M, hM⟩ := readCoef_says hfit ht
    obtain ⟨m, hm⟩ := (even_iff (table_ne ht)).1 he
    refine ⟨max N M + 1, fun r line hr fuel hf => ?_⟩
    obtain ⟨r', h1, h2, h3⟩ := onward_table hr hn ha line
    obtain ⟨fid', h4, h5⟩ := hM r' h1
    obtain ⟨k, rfl⟩ : ∃ k, fuel = k + 1 := ⟨fuel - 1, by omega⟩
    rw [h3, h5 k (by omega), hm]
    simp only [Res.ok_bind]
    exact ih _ _ h4.tellg k (by omega)

theorem onward_mono (r : FR (PunData α)) (line : Str) : Mono (fun n => onward n r line) :=
  fun n m hle => Le.bind (readLoop_mono punSections_mono n m hle _ _) (fun _ => Le.refl _)

theorem onward_endless {t : Str} (hfit : AllFit t) {i : Nat} (h : Endless α t i) : ∀ (r : FR (PunData α)) (line : Str),
    At t i r.fid → ∀ fuel, onward fuel r line = .diverge := by
  induction h with
  | @here i spin hn ha hb =>
    intro r line hr fuel
    obtain ⟨r', h1, h2, h3⟩ := onward_table hr hn ha line
    cases fuel with
    | zero => rfl
    | succ k =>
      have := coefLoop_endless hfit hb [] r'.fid h1 k
      simp only [Option.isSome_none, Option.getD_none] at this
      rw [h3, readCoef, this]
      rfl
  | @skip i hn ha _ ih =>
    intro r line hr fuel
    obtain ⟨r', h1, h2, h3⟩ := onward_skip hr hn ha line
    cases fuel with
    | zero => rfl
    | succ k => rw [h3, ih r' _ h1 k]
  | @table i spin k0 rows hn ha ht he _ ih =>
    intro r line hr fuel
    obtain ⟨M, hM⟩ := readCoef_says hfit ht
    obtain ⟨m, hm⟩ := (even_iff (table_ne ht)).1 he
    obtain ⟨r', h1, h2, h3⟩ := onward_table hr hn ha line
    obtain ⟨fid', h4, h5⟩ := hM r' h1
    by_cases hd : onward fuel r line = .diverge
    · exact hd
    · have h6 := onward_mono r line fuel (max M fuel + 1) (by omega) hd
      simp only [] at h6
      rw [h3, h5 _ (by omega), hm] at h6
      simp only [Res.ok_bind] at h6
      rw [ih _ _ h4.tellg] at h6
      exact absurd h6.symm hd

/-! ### nothing else can be -/

theorem row_trichotomy (t : Str) (count : Option Nat) (i : Nat) :
    (∃ k, ∃ row : List α, RowAt t count i k row) ∨ (∃ e, BadRowAt α t count i e) ∨ EndlessRow α t count i := by
  have hv : ∃ vals : Nat → List α, ∀ j v, lineCoefs (rowLine t i j) = .ok v → vals j = v :=
    ⟨fun j => match (lineCoefs (rowLine t i j) : Res (List α)) with | .ok v => v | _ => [], fun j v h => by simp only [h]⟩
  obtain ⟨vals, hv⟩ := hv
  by_cases h : ∀ k, RowLines t count i k vals
  · exact .inr (.inr ⟨vals, h⟩)
  · have : ∃ k, RowLines t count i k vals ∧ ¬ RowLines t count i (k + 1) vals := by
      apply Classical.byContradiction
      intro hc
      refine h fun k => ?_
      induction k with
      | zero => intro j hj; omega
      | succ k ih => exact Classical.byContradiction fun hk => hc ⟨k, ih, hk⟩
    obtain ⟨k, h1, h2⟩ := this
    by_cases hcomp : Complete count (rowLine t i k) (together vals k)
    · exact .inl ⟨k, _, vals, h1, rfl, hcomp⟩
    · rcases lineCoefs_cases (α := α) (rowLine t i k) with ⟨v, hl⟩ | ⟨e, hl⟩
      · exfalso
        refine h2 fun j hj => ?_
        by_cases hjk : j = k
        · subst hjk
          exact ⟨hcomp, by rw [hv j v hl]; exact hl⟩
        · exact h1 j (by omega)
      · exact .inr (.inl ⟨e, k, vals, h1, hcomp, hl⟩)

theorem spin_not_nil (spin : Spin) : ¬ Contains [] spin.name := by
  rintro ⟨x, y, e⟩
  cases spin <;> simp [Spin.name] at e

theorem table_trichotomy (t : Str) (spin : Spin) : ∀ (n i : Nat) (count : Option Nat), (textLines t).length - i ≤ n →
    (∃ e, ∃ rows : List (List α), i < e ∧ TableAt t spin count i rows e) ∨ (∃ e, BadTable α t spin count i e) ∨ EndlessTable α t spin count i := by
  intro n
  induction n with
  | zero =>
    intro i count hn
    rcases row_trichotomy (α := α) t count i with ⟨k, row, h⟩ | ⟨e, h⟩ | h
    · refine .inl ⟨_, _, ?_, .last h ?_⟩
      · omega
      · rw [rowLine, if_neg (by omega)]; exact spin_not_nil spin
    · exact .inr (.inl ⟨e, .here h⟩)
    · exact .inr (.inr (.here h))
  | succ n ih =>
    intro i count hn
    rcases row_trichotomy (α := α) t count i with ⟨k, row, h⟩ | ⟨e, h⟩ | h
    · by_cases hc : Contains (rowLine t i k) spin.name
      · rcases ih (i + k + 1) (some row.length) (by omega) with ⟨e, rows, h1, h2⟩ | ⟨e, h2⟩ | h2
        · exact .inl ⟨e, _, by omega, .more h hc h2⟩
        · exact .inr (.inl ⟨e, .later h hc h2⟩)
        · exact .inr (.inr (.later h hc h2))
      · exact .inl ⟨_, _, by omega, .last h hc⟩
    · exact .inr (.inl ⟨e, .here h⟩)
    · exact .inr (.inr (.here h))

theorem file_trichotomy (t : Str) : ∀ (n i : Nat) (d : Known α), (textLines t).length - i ≤ n →
    (∃ d', Says t i d d') ∨ (∃ e, Fails α t i e) ∨ Endless α t i := by
  intro n
  induction n with
  | zero =>
    intro i d hn
    exact .inl ⟨d, .done (.inl (by omega))⟩
  | succ n ih =>
    intro i d hle
    by_cases hn : NoLine t i
    · exact .inl ⟨d, .done hn⟩
    by_cases ha : ∃ spin, Announces (lineAt t i) spin
    · obtain ⟨spin, ha⟩ := ha
      rcases table_trichotomy (α := α) t spin _ (i + 1) none (Nat.le_refl _) with ⟨e, rows, h1, h2⟩ | ⟨e, h2⟩ | h2
      · by_cases he : SameLength rows
        · rcases ih e (fun s => if s = spin then some rows else d s) (by omega) with ⟨d', h⟩ | ⟨x, h⟩ | h
          · exact .inl ⟨d', .table hn ha h2 he h⟩
          · exact .inr (.inl ⟨x, .table hn ha h2 he h⟩)
          · exact .inr (.inr (.table hn ha h2 he h))
        · exact .inr (.inl ⟨_, .uneven hn ha h2 he⟩)
      · exact .inr (.inl ⟨e, .bad hn ha h2⟩)
      · exact .inr (.inr (.here hn ha h2))
    · have ha' : ∀ spin, ¬ Announces (lineAt t i) spin := fun spin h => ha ⟨spin, h⟩
      rcases ih (i + 1) d (by omega) with ⟨d', h⟩ | ⟨x, h⟩ | h
      · exact .inl ⟨d', .skip hn ha' h⟩
      · exact .inr (.inl ⟨x, .skip hn ha' h⟩)
      · exact .inr (.inr (.skip hn ha' h))

/-! ### the claims -/

section
variable [Zero α]

theorem readPun_eq (fs : Str → Option Str) (name text : Str) (hfit : Fits name) (hname : PlainName (lit ".pun") name)
    (h : fs name = some text) : (fun n => (readPun fs n name : Res (PunData α))) = fun n => onward n ⟨openText text, some text, []⟩ [] := by
  funext n
  unfold readPun
  rw [((C70_accepted_partial (α := α) name hfit).2.2.1).2 hname]
  simp only [Res.ok_bind]
  exact read_eq _ _ _ _ h _ _

omit [Mul α] [Num α] [Zero α] in
theorem at_start (t : Str) : At t 0 (openText t) := .inl ⟨[], t, rfl, rfl, rfl⟩

/-- **C119 (read).** If the text says that the tables are `d`, the file is read, and the getters give these tables. -/
theorem C119_says (fs : Str → Option Str) (name text : Str) (hfit : Fits name) (hname : PlainName (lit ".pun") name)
    (h : fs name = some text) (ht : Fits text) (d : Known α) (hs : Says text 0 (fun _ => none) d) :
    ∃ D, Ends (fun n => (readPun fs n name : Res (PunData α))) (.ok D) ∧ (∀ spin : Spin,
      (∀ rows, d spin = some rows → ∃ m, D.getCoefsMatrix spin.name = .ok m ∧ m.rows = rows.length ∧ m.cols = (rows.headD []).length ∧
        ∀ (i : Nat) (hi : i < rows.length) (j : Nat) (hj : j < rows[i].length), m.getElem2 (i + 1) (j + 1) = .ok (rows[i][j])) ∧
      (d spin = none → D.getCoefsMatrix spin.name = .throw .invalidArgument)) ∧
      (D.restrictedShell = true ↔ ((d .alpha).isSome ≠ (d .beta).isSome)) := by
  rw [readPun_eq fs name text hfit hname h]
  obtain ⟨N, hN⟩ := onward_says (allFit_of ht) hs
  obtain ⟨D, hD, hE⟩ := hN ⟨openText text, some text, []⟩ [] (at_start text) ⟨fun spin => ⟨fun _ => rfl, fun rows e => by cases e⟩, rfl⟩
  refine ⟨D, ⟨by simp, N, hE⟩, fun spin => ⟨fun rows hr => ?_, fun hr => ?_⟩, ?_⟩
  · obtain ⟨m, h1, h2⟩ := (hD.1 spin).2 rows hr
    refine ⟨m, by simp only [PunData.getCoefsMatrix, h1], ?_⟩
    cases rows with
    | nil => rw [(C04_ofVecVec []).1 rfl] at h2; cases h2
    | cons v vs =>
      have he : SameLength (v :: vs) := Classical.byContradiction fun hc => by
        rw [(even_iff (by simp)).2 hc] at h2; cases h2
      obtain ⟨m', e, -, h3, h4, -, h5⟩ := (C04_ofVecVec (v :: vs)).2.2 v rfl he
      rw [h2] at e
      cases e
      exact ⟨h3, h4, h5⟩
  · simp only [PunData.getCoefsMatrix, (hD.1 spin).1 hr]
  · unfold PunData.restrictedShell
    have hl : D.length = (punKeys D).length := by simp [punKeys]
    rw [decide_eq_true_eq, hl, hD.2]
    cases (d .alpha).isSome <;> cases (d .beta).isSome <;> simp [spinKeys]

/-- **C119 (failure).** -/
theorem C119_fails (fs : Str → Option Str) (name text : Str) (hfit : Fits name) (hname : PlainName (lit ".pun") name)
    (h : fs name = some text) (ht : Fits text) (e : Exn) (hs : Fails α text 0 e) :
    Ends (fun n => (readPun fs n name : Res (PunData α))) (.throw e) := by
  rw [readPun_eq fs name text hfit hname h]
  obtain ⟨N, hN⟩ := onward_fails (allFit_of ht) hs
  exact ⟨by simp, N, hN _ _ (at_start text)⟩

/-- **C119 (no end).** -/
theorem C119_endless (fs : Str → Option Str) (name text : Str) (hfit : Fits name) (hname : PlainName (lit ".pun") name)
    (h : fs name = some text) (ht : Fits text) (hs : Endless α text 0) :
    Hangs (fun n => (readPun fs n name : Res (PunData α))) := by
  rw [readPun_eq fs name text hfit hname h]
  exact onward_endless (allFit_of ht) hs _ _ (at_start text)

omit [Zero α] in
/-- **C119 (nothing else can be).** Whatever the text, one of the three applies. -/
theorem C119_cases (text : Str) : (∃ d : Known α, Says text 0 (fun _ => none) d) ∨ (∃ e, Fails α text 0 e) ∨ Endless α text 0 :=
  file_trichotomy text _ 0 _ (Nat.le_refl _)

/-- **C119 (one case only).** The three exclude each other, and there is one way to fail only. -/
theorem C119_one (text : Str) (ht : Fits text) : (∀ (d : Known α) e, Says text 0 (fun _ => none) d → ¬ Fails α text 0 e) ∧
    (∀ d : Known α, Says text 0 (fun _ => none) d → ¬ Endless α text 0) ∧ (∀ e, Fails α text 0 e → ¬ Endless α text 0) ∧
    (∀ e e', Fails α text 0 e → Fails α text 0 e' → e = e') := by
  have hf : Fits (lit "a.pun") := by unfold Fits; decide
  have hp : PlainName (lit ".pun") (lit "a.pun") := ⟨[], (lit "a"), [], rfl, .inl rfl, by decide, by decide, by simp⟩
  refine ⟨fun d e h1 h2 => ?_, fun d h1 h2 => ?_, fun e h1 h2 => ?_, fun e e' h1 h2 => ?_⟩
  · obtain ⟨D, e1, -⟩ := C119_says (fun _ => some text) _ text hf hp rfl ht d h1
    have := e1.unique (C119_fails (fun _ => some text) _ text hf hp rfl ht e h2)
    cases this
  · obtain ⟨D, ⟨-, N, e1⟩, -⟩ := C119_says (fun _ => some text) _ text hf hp rfl ht d h1
    have := (e1 N (Nat.le_refl _)).symm.trans (C119_endless (α := α) (fun _ => some text) _ text hf hp rfl ht h2 N)
    cases this
  · obtain ⟨h, N, e1⟩ := C119_fails (α := α) (fun _ => some text) _ text hf hp rfl ht e h1
    exact h ((e1 N (Nat.le_refl _)).symm.trans (C119_endless (α := α) (fun _ => some text) _ text hf hp rfl ht h2 N))
  · have := (C119_fails (α := α) (fun _ => some text) _ text hf hp rfl ht e h1).unique (C119_fails (α := α) (fun _ => some text) _ text hf hp rfl ht e' h2)
    cases this
    rfl

end

/-! ### examples -/

theorem name_pun : PlainName (lit ".pun") (lit "a.pun") := ⟨[], (lit "a"), [], rfl, .inl rfl, by decide, by decide, by simp⟩
theorem fits_pun : Fits (lit "a.pun") := by unfold Fits; decide

/-- Two orbitals; the second line of the second one is never looked at. -/
def two : Str := (lit " 1 Alpha MO OE=0\n          1D+00          2D+00\n          3D+00\n 2 Alpha MO OE=1\n          4D+00          5D+00          6D+00\n 7")

theorem two_says : Says two 0 (fun _ => none) (fun s => if s = .alpha then some [[(1 : Int), 2, 3], [4, 5, 6]] else none) := by
  refine .table (spin := .alpha) (rows := [[1, 2, 3], [4, 5, 6]]) (e := 6) (by unfold NoLine; decide) (contains_of (by decide)) ?_ (by unfold SameLength; decide) (.done (.inl (by decide)))
  refine .more (k := 2) (row := [1, 2, 3]) ⟨fun j => if j = 0 then [1, 2] else [3], ?_, by decide, .inl (contains_of (by decide))⟩ (contains_of (by decide)) ?_
  · intro j hj
    have : j = 0 ∨ j = 1 := by omega
    rcases this with rfl | rfl
    · refine ⟨?_, by decide⟩
      rintro (h | ⟨c, h, -⟩)
      · exact not_contains_of (by decide) h
      · cases h
    · refine ⟨?_, by decide⟩
      rintro (h | ⟨c, h, -⟩)
      · exact not_contains_of (by decide) h
      · cases h
  · refine .last (k := 1) (row := [4, 5, 6]) ⟨fun _ => [4, 5, 6], ?_, by decide, .inr ⟨3, rfl, by decide⟩⟩ (not_contains_of (by decide))
    intro j hj
    have : j = 0 := by omega
    subst this
    refine ⟨?_, by decide⟩
    rintro (h | ⟨c, h, h'⟩)
    · exact not_contains_of (by decide) h
    · cases h; exact absurd h' (by decide)

example : ∃ D : PunData Int, Ends (fun n => readPun (holding (lit "a.pun") two) n (lit "a.pun")) (.ok D) ∧ D.restrictedShell = true ∧
    ∃ m, D.getCoefsMatrix (lit "Alpha") = .ok m ∧ m.getElem2 2 3 = .ok 6 := by
  obtain ⟨D, h1, h2, h3⟩ := C119_says (holding (lit "a.pun") two) _ two fits_pun name_pun rfl (by unfold Fits; decide +kernel) _ two_says
  obtain ⟨m, h4, -, -, h5⟩ := (h2 .alpha).1 _ rfl
  exact ⟨D, h1, h3.2 (by simp), m, h4, h5 1 (by decide) 2 (by decide)⟩

/-- A coefficient that is no number. -/
def wrong : Str := (lit "\n 1 Beta MO OE=0\n          xD+00\n")

example : Ends (fun n => (readPun (holding (lit "a.pun") wrong) n (lit "a.pun") : Res (PunData Int))) (.throw .invalidArgument) := by
  refine C119_fails (holding (lit "a.pun") wrong) _ wrong fits_pun name_pun rfl (by unfold Fits; decide +kernel) _ (.skip (by unfold NoLine; decide) ?_ ?_)
  · intro spin h
    cases spin
    · exact not_contains_of (l := lineAt wrong 0) (p := (lit " 1 Alpha MO ")) (by decide) h
    · exact not_contains_of (l := lineAt wrong 0) (p := (lit " 1 Beta MO ")) (by decide) h.2
  · refine .bad (spin := .beta) (by unfold NoLine; decide) ⟨not_contains_of (by decide), contains_of (by decide)⟩ (.here ⟨0, fun _ => [], fun j hj => by omega, ?_, by decide⟩)
    rintro (h | ⟨c, h, -⟩)
    · exact not_contains_of (by decide) h
    · cases h

/-- A single orbital at the end of the file. -/
def one : Str := (lit " 1 Alpha MO OE=0\n          1D+00\n")

example : Hangs (fun n => (readPun (holding (lit "a.pun") one) n (lit "a.pun") : Res (PunData Int))) := by
  refine C119_endless (holding (lit "a.pun") one) _ one fits_pun name_pun rfl (by unfold Fits; decide +kernel)
    (.here (spin := .alpha) (by unfold NoLine; decide) (contains_of (by decide)) (.here ⟨fun j => if j = 0 then [1] else [], fun k j hj => ?_⟩))
  by_cases h0 : j = 0
  · subst h0
    refine ⟨?_, by decide⟩
    rintro (h | ⟨c, h, -⟩)
    · exact not_contains_of (by decide) h
    · cases h
  · have e : rowLine one 1 j = [] := by
      rw [rowLine, if_pos (by decide), lineAt_over (by
        have : (textLines one).length = 3 := by decide
        omega)]
      decide
    rw [e]
    refine ⟨?_, by simp only [h0, if_false]; rfl⟩
    rintro (h | ⟨c, h, -⟩)
    · exact not_contains_of (by decide) h
    · cases h

end Verif.Readers
