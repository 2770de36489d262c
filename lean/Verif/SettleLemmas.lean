import Verif.HangLemmas
/-
How many passes the loops of the readers can take: after a number of passes linear in the length of the text, a loop that has
not ended never ends.
-/
namespace Verif.Readers
open Strings Log Pun

/-- From `B` passes on, allowing more changes nothing. -/
def Settled {β : Type} (B : Nat) (f : Nat → Res β) : Prop := ∀ n, B ≤ n → f n = f B

theorem Settled.mono {β : Type} {B B' : Nat} {f : Nat → Res β} (h : Settled B f) (hb : B ≤ B') : Settled B' f :=
  fun n hn => (h n (by omega)).trans (h B' hb).symm

theorem Settled.const {β : Type} (x : Res β) (B : Nat) : Settled B (fun _ => x) := fun _ _ => rfl

theorem Settled.bind {β γ : Type} {B : Nat} {f : Nat → Res β} {g : Nat → β → Res γ} (hf : Settled B f)
    (hg : ∀ a, f B = .ok a → Settled B (fun n => g n a)) : Settled B (fun n => f n >>= g n) := by
  intro n hn
  show (f n >>= g n) = (f B >>= g B)
  rw [hf n hn]
  cases e : f B with
  | ok a => exact hg a e n hn
  | throw _ => rfl
  | exit _ => rfl
  | ub => rfl
  | diverge => rfl

theorem Settled.ite {β : Type} {B : Nat} {p : Prop} [Decidable p] {f g : Nat → Res β} (hf : p → Settled B f) (hg : ¬ p → Settled B g) :
    Settled B (fun n => if p then f n else g n) := by
  by_cases h : p
  · simp only [if_pos h]; exact hf h
  · simp only [if_neg h]; exact hg h

theorem Settled.succ {β : Type} {B : Nat} {f g : Nat → Res β} (h : ∀ n, f (n + 1) = g n) (hg : Settled B g) : Settled (B + 1) f := by
  intro n hn
  obtain ⟨k, rfl⟩ : ∃ k, n = k + 1 := ⟨n - 1, by omega⟩
  rw [h, h]
  exact hg k (by omega)

theorem Hangs.settled {β : Type} {f : Nat → Res β} (h : Hangs f) (B : Nat) : Settled B f := fun n _ => (h n).trans (h B).symm

theorem Settled.congr {β : Type} {B : Nat} {f g : Nat → Res β} (h : ∀ n, f n = g n) (hg : Settled B g) : Settled B f := by
  intro n hn; rw [h, h]; exact hg n hn

/-! ### streams -/

/-- Neither the end of the text nor an error has been met. -/
def Fine (s : Stream) : Prop := s.eof = false ∧ s.fail = false

theorem not_good {s : Stream} : ¬ Fine s ↔ s.eof = true ∨ s.fail = true := by
  unfold Fine
  cases s.eof <;> cases s.fail <;> simp

/-- A bound on the number of lines that can be read. -/
def room (s : Stream) : Nat := if s.eof || s.fail then 0 else s.text.length + 1

theorem room_good {s : Stream} (h : Fine s) : room s = s.text.length + 1 := by
  unfold room; rw [h.1, h.2]; rfl

theorem room_bad {s : Stream} (h : ¬ Fine s) : room s = 0 := by
  unfold room; rw [if_pos (by simpa using not_good.1 h)]

theorem Fine.open {s : Stream} (h : Fine s) : s = openText s.text := by
  obtain ⟨t, e, f⟩ := s
  obtain ⟨h1, h2⟩ := h
  simp only at h1 h2
  subst h1; subst h2; rfl

/-- A line taken from a good stream, and what it leaves, are no longer than what there was. -/
theorem getline_room {s : Stream} (h : Fine s) (prev : Str) :
    (getline s prev).1.length + room (getline s prev).2 < room s := by
  rw [room_good h]
  unfold getline
  rw [h.1, h.2]
  simp only [Bool.or_false, Bool.false_eq_true, if_false]
  cases e : s.text with
  | nil => simp [room]
  | cons c t =>
    simp only
    have hl : ((c :: t).takeWhile (fun c => decide (c ≠ '\n'))).length + ((c :: t).dropWhile (fun c => decide (c ≠ '\n'))).length = (c :: t).length := by
      rw [← List.length_append, List.takeWhile_append_dropWhile]
    cases e' : (c :: t).dropWhile (fun c => decide (c ≠ '\n')) with
    | nil =>
      rw [e'] at hl
      simp only [room, List.length_nil, Nat.add_zero] at hl ⊢
      simp only [hl, Bool.or_false, if_true]
      omega
    | cons d r =>
      rw [e'] at hl
      simp only [List.length_cons] at hl
      simp only [room, Bool.or_false, Bool.false_eq_true, if_false, List.length_cons]
      omega

theorem getline_not_good {s : Stream} (h : ¬ Fine s) (prev : Str) :
    getline s prev = (prev, { s with fail := true }) := getline_bad (not_good.1 h) prev

theorem fail_not_good (s : Stream) : ¬ Fine { s with fail := true } := by
  intro h; cases h.2

theorem room_getline (s : Stream) (prev : Str) : room (getline s prev).2 ≤ room s := by
  by_cases h : Fine s
  · have := getline_room h prev; omega
  · rw [getline_not_good h, room_bad h, room_bad (fail_not_good s)]; omega

/-! ### pun files -/

section
variable {α : Type} [Mul α] [Num α]

theorem gausLoop_length (line : Str) : ∀ (n indent : Nat) (vals out : List α), indent ≤ line.length →
    gausLoop line n indent vals = .ok out → out.length + indent ≤ vals.length + line.length
  | 0, _, _, _, _, h => by cases h
  | n + 1, indent, vals, out, hi, h => by
    unfold gausLoop at h
    split at h
    · rename_i hts
      have hk : indent + 15 ≤ line.length := by unfold toSize at hts; omega
      obtain ⟨a, -, h⟩ := Res.bind_eq_ok.1 h
      obtain ⟨b, -, h⟩ := Res.bind_eq_ok.1 h
      obtain ⟨c, -, h⟩ := Res.bind_eq_ok.1 h
      obtain ⟨d, -, h⟩ := Res.bind_eq_ok.1 h
      have := gausLoop_length line n (indent + 15) _ out hk h
      simp only [List.length_append, List.length_singleton] at this
      omega
    · cases h; omega

theorem gaus_length {line : Str} {out : List α} (h : readGausCoefLine line = .ok out) : out.length ≤ line.length := by
  have := gausLoop_length line _ 0 [] out (by omega) h
  simpa using this

theorem gaus_nil : (readGausCoefLine [] : Res (List α)) = .ok [] := rfl

/-- One pass over a line that is not the header of an orbital, with coefficients still missing. -/
theorem rowLoop_pass {b : Bool} {count : Nat} {line : Str} {row : List α} (h1 : foundSubStrInStr line moPattern = false)
    (h2 : b = true → row.length < count) (fid : Stream) (n : Nat) :
    rowLoop b count (n + 1) fid line row =
      (readGausCoefLine line >>= fun coef => rowLoop b count n (getline fid line).2 (getline fid line).1 (row ++ coef)) := by
  rw [rowLoop]
  rw [if_neg (by simp [h1]), if_neg (by
    cases b
    · simp
    · simpa using h2 rfl)]

/-- After the end of the text, a line without coefficients is read again for ever. -/
theorem rowLoop_none {b : Bool} {count : Nat} {line : Str} (h1 : foundSubStrInStr line moPattern = false)
    (h3 : readGausCoefLine line = .ok ([] : List α)) : ∀ (n : Nat) (fid : Stream) (row : List α), ¬ Fine fid →
    (b = true → row.length < count) → rowLoop b count n fid line row = .diverge
  | 0, _, _, _, _ => rfl
  | n + 1, fid, row, hg, h2 => by
    rw [rowLoop_pass h1 h2, h3]
    simp only [Res.ok_bind, getline_not_good hg, List.append_nil]
    exact rowLoop_none h1 h3 n _ _ (fail_not_good _) h2

/-- So is any line, if the number of coefficients is not known. -/
theorem rowLoop_unknown {count : Nat} {line : Str} (h1 : foundSubStrInStr line moPattern = false) {coef : List α}
    (h3 : readGausCoefLine line = .ok coef) : ∀ (n : Nat) (fid : Stream) (row : List α), ¬ Fine fid →
    rowLoop false count n fid line row = .diverge
  | 0, _, _, _ => rfl
  | n + 1, fid, row, hg => by
    rw [rowLoop_pass h1 (by simp), h3]
    simp only [Res.ok_bind, getline_not_good hg]
    exact rowLoop_unknown h1 h3 n _ _ (fail_not_good _)

theorem rowLoop_done {b : Bool} {count : Nat} {line : Str} {row : List α}
    (h : foundSubStrInStr line moPattern = true ∨ (b = true ∧ count ≤ row.length)) (fid : Stream) (n : Nat) :
    rowLoop b count (n + 1) fid line row = .ok (fid, line, row) := by
  rw [rowLoop]
  split
  · rfl
  · rename_i hf
    rw [if_pos]
    rcases h with h | ⟨rfl, h⟩
    · exact absurd h hf
    · simpa using h

theorem rowLoop_split (b : Bool) (count : Nat) (line : Str) (row : List α) :
    (foundSubStrInStr line moPattern = true ∨ (b = true ∧ count ≤ row.length)) ∨
    (foundSubStrInStr line moPattern = false ∧ (b = true → row.length < count)) := by
  cases foundSubStrInStr line moPattern
  · cases b
    · simp
    · simp only [Bool.false_eq_true, false_or, true_and, forall_true_left]
      omega
  · simp

theorem settled_step {β γ : Type} {B : Nat} {f : Nat → Res β} {x : Res γ} {g : Nat → γ → Res β} (h : ∀ n, f (n + 1) = (x >>= g n))
    (hg : ∀ a, x = .ok a → Settled B (fun n => g n a)) : Settled (B + 1) f :=
  Settled.succ h (Settled.bind (Settled.const x B) hg)

theorem settled_now {β : Type} {f : Nat → Res β} {x : Res β} (h : ∀ n, f (n + 1) = x) (B : Nat) : Settled (B + 1) f :=
  Settled.succ h (Settled.const x B)

theorem rowLoop_stuck (b : Bool) (count : Nat) (line : Str) : ∀ (k : Nat) (fid : Stream) (row : List α), ¬ Fine fid →
    count - row.length ≤ k → Settled (k + 1) (fun n => rowLoop b count n fid line row) := by
  intro k
  induction k with
  | zero =>
    intro fid row hg hk
    rcases rowLoop_split b count line row with h | ⟨h1, h2⟩
    · exact settled_now (rowLoop_done h fid) 0
    · have hb : b = false := by
        cases b
        · rfl
        · have := h2 rfl; omega
      subst hb
      cases e : (readGausCoefLine line : Res (List α)) with
      | ok coef => exact Hangs.settled (fun n => rowLoop_unknown h1 e n fid row hg) _
      | _ => exact settled_step (rowLoop_pass h1 h2 fid) (fun a ha => by rw [e] at ha; cases ha)
  | succ k ih =>
    intro fid row hg hk
    rcases rowLoop_split b count line row with h | ⟨h1, h2⟩
    · exact settled_now (rowLoop_done h fid) _
    · cases e : (readGausCoefLine line : Res (List α)) with
      | ok coef =>
        cases coef with
        | nil => exact Hangs.settled (fun n => rowLoop_none h1 e n fid row hg h2) _
        | cons v vs =>
          refine settled_step (rowLoop_pass h1 h2 fid) fun a ha => ?_
          rw [e] at ha
          cases ha
          simp only [getline_not_good hg]
          exact ih _ _ (fail_not_good _) (by simp only [List.length_append, List.length_cons]; omega)
      | _ => exact settled_step (rowLoop_pass h1 h2 fid) (fun a ha => by rw [e] at ha; cases ha)

theorem rowLoop_settled (b : Bool) (count : Nat) : ∀ (k : Nat) (fid : Stream) (line : Str) (row : List α), room fid ≤ k →
    Settled (k + count + 1) (fun n => rowLoop b count n fid line row) := by
  intro k
  induction k with
  | zero =>
    intro fid line row hk
    have hg : ¬ Fine fid := fun h => by rw [room_good h] at hk; omega
    exact (rowLoop_stuck b count line count fid row hg (by omega)).mono (by omega)
  | succ k ih =>
    intro fid line row hk
    by_cases hg : Fine fid
    · rcases rowLoop_split b count line row with h | ⟨h1, h2⟩
      · exact (settled_now (rowLoop_done h fid) 0).mono (by omega)
      · have e : k + 1 + count + 1 = (k + count + 1) + 1 := by omega
        rw [e]
        refine settled_step (rowLoop_pass h1 h2 fid) fun a ha => ?_
        exact ih _ _ _ (by have := getline_room hg line; omega)
    · exact (rowLoop_stuck b count line count fid row hg (by omega)).mono (by omega)

/-- While the text lasts, a row is no longer than the text it was read from. -/
theorem rowLoop_length (b : Bool) (count : Nat) : ∀ (n : Nat) (fid : Stream) (line : Str) (row : List α) (fid' : Stream) (line' : Str)
    (row' : List α), rowLoop b count n fid line row = .ok (fid', line', row') →
    room fid' ≤ room fid ∧ (Fine fid' → row'.length + room fid' ≤ row.length + line.length + room fid)
  | 0, _, _, _, _, _, _, h => by cases h
  | n + 1, fid, line, row, fid', line', row', h => by
    rcases rowLoop_split b count line row with hd | ⟨h1, h2⟩
    · rw [rowLoop_done hd] at h
      cases h
      exact ⟨Nat.le_refl _, fun _ => by omega⟩
    · rw [rowLoop_pass h1 h2] at h
      obtain ⟨coef, hc, h⟩ := Res.bind_eq_ok.1 h
      have hl := gaus_length hc
      obtain ⟨i1, i2⟩ := rowLoop_length b count n _ _ _ _ _ _ h
      have hr := room_getline fid line
      refine ⟨by omega, fun hg' => ?_⟩
      have i2 := i2 hg'
      by_cases hg : Fine fid
      · have := getline_room hg line
        simp only [List.length_append] at i2
        omega
      · exfalso
        have := room_bad hg
        rw [room_good hg'] at i1
        omega

theorem coefLoop_pass (t : Str) (b : Bool) (count : Nat) (fid : Stream) (v : List (List α)) (n : Nat) :
    coefLoop t (n + 1) b count fid v =
      (rowLoop b count n (getline fid []).2 (getline fid []).1 [] >>= fun x =>
        if !foundSubStrInStr x.2.1 t then .ok (x.1, v ++ [x.2.2]) else coefLoop t n true x.2.2.length x.1 (v ++ [x.2.2])) := rfl

theorem foundSub_nil {t : Str} (ht : t ≠ []) : foundSubStrInStr [] t = false := by
  cases h : foundSubStrInStr [] t with
  | false => rfl
  | true =>
    obtain ⟨x, y, e⟩ := found_contains.1 h
    simp at e
    exact absurd e.2.1 ht

theorem coefLoop_stuck {t : Str} (ht : t ≠ []) (b : Bool) (count : Nat) (fid : Stream) (hg : ¬ Fine fid) (v : List (List α)) :
    Settled 2 (fun n => coefLoop t n b count fid v) := by
  rcases rowLoop_split (α := α) b count [] [] with h | ⟨h1, h2⟩
  · refine Settled.succ (B := 1) (coefLoop_pass t b count fid v) ?_
    rw [getline_not_good hg]
    refine Settled.bind (settled_now (rowLoop_done h _) 0) fun a ha => ?_
    rw [rowLoop_done h] at ha
    cases ha
    refine Settled.ite (fun _ => Settled.const _ _) fun hn => ?_
    exfalso
    rw [foundSub_nil ht] at hn
    exact hn rfl
  · refine Hangs.settled (fun n => ?_) _
    cases n with
    | zero => rfl
    | succ n =>
      show coefLoop t (n + 1) b count fid v = _
      rw [coefLoop_pass, getline_not_good hg, rowLoop_none h1 gaus_nil n _ _ (fail_not_good _) h2]
      rfl

theorem coefLoop_settled {t : Str} (ht : t ≠ []) (L : Nat) : ∀ (k : Nat) (b : Bool) (count : Nat) (fid : Stream) (v : List (List α)),
    room fid ≤ k → count + room fid ≤ L → Settled (k + L + 2) (fun n => coefLoop t n b count fid v) := by
  intro k
  induction k with
  | zero =>
    intro b count fid v hk hL
    have hg : ¬ Fine fid := fun h => by rw [room_good h] at hk; omega
    exact (coefLoop_stuck ht b count fid hg v).mono (by omega)
  | succ k ih =>
    intro b count fid v hk hL
    by_cases hg : Fine fid
    · have hr := getline_room hg []
      have e : k + 1 + L + 2 = (k + L + 2) + 1 := by omega
      rw [e]
      refine Settled.succ (coefLoop_pass t b count fid v) ?_
      refine Settled.bind ((rowLoop_settled b count (room (getline fid []).2) _ _ _ (Nat.le_refl _)).mono (by omega)) fun a ha => ?_
      obtain ⟨fid', line', row'⟩ := a
      obtain ⟨i1, i2⟩ := rowLoop_length _ _ _ _ _ _ _ _ _ ha
      refine Settled.ite (fun _ => Settled.const _ _) fun _ => ?_
      by_cases hg' : Fine fid'
      · have i2 := i2 hg'
        simp only [List.length_nil] at i2
        exact ih _ _ _ _ (by show room fid' ≤ k; omega) (by show row'.length + room fid' ≤ L; omega)
      · exact (coefLoop_stuck ht _ _ fid' hg' _).mono (by omega)
    · exact (coefLoop_stuck ht b count fid hg v).mono (by omega)

theorem coefLoop_room (t : Str) : ∀ (n : Nat) (b : Bool) (count : Nat) (fid : Stream) (v : List (List α)) (fid' : Stream) (v' : List (List α)),
    coefLoop t n b count fid v = .ok (fid', v') → room fid' ≤ room fid
  | 0, _, _, _, _, _, _, h => by cases h
  | n + 1, b, count, fid, v, fid', v', h => by
    rw [coefLoop_pass] at h
    obtain ⟨⟨f1, l1, r1⟩, e, h⟩ := Res.bind_eq_ok.1 h
    have h1 := (rowLoop_length _ _ _ _ _ _ _ _ _ e).1
    have h2 := room_getline fid []
    dsimp only at h
    split at h
    · cases h; omega
    · have := coefLoop_room t n _ _ _ _ _ _ h
      omega

end
end Verif.Readers
