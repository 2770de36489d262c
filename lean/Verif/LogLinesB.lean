import Verif.LogLinesA
import Verif.OverlapLemmas
/-
The overlap matrix, line by line.
-/
namespace Verif.LogLines
open Strings Log Readers Mat
open Pun (rowLine NoLine strip)

variable {α : Type} [Mul α] [Num α] [Zero α]

/-! ### numbers -/

theorem word_le (l : Str) : ∀ w ∈ words l, w.length ≤ l.length := by
  induction l with
  | nil => simp [words]
  | cons c l ih =>
    rw [words]
    split
    · intro w hw
      have := ih w hw
      simp only [List.length_cons]; omega
    · split
      · intro w hw
        rcases List.mem_cons.1 hw with rfl | hw
        · simp
        · have := ih w hw
          simp only [List.length_cons]; omega
      · split
        · intro w hw
          simp only [List.mem_singleton] at hw
          subst hw; simp
        · rename_i e
          rw [e] at ih
          intro w' hw
          rcases List.mem_cons.1 hw with rfl | hw
          · have := ih _ (List.mem_cons_self ..)
            simp only [List.length_cons]; omega
          · have := ih w' (List.mem_cons_of_mem _ hw)
            simp only [List.length_cons]; omega

theorem beyond_fits {k : Nat} {l : Str} (h : Fits l) : ∀ w ∈ beyond k l, Fits w := by
  intro w hw
  unfold beyond at hw
  split at hw
  · simp at hw
  · rcases List.mem_append.1 hw with hw | hw
    · have := word_le l w (List.mem_of_mem_drop hw)
      unfold Fits at h ⊢
      omega
    · split at hw
      · simp only [List.mem_singleton] at hw
        subst hw
        unfold Fits; simp
      · simp at hw

omit [Zero α] in
theorem fortran_eq {s : Str} (h : Fits s) : (fortran s : Res α) = fortranNumber s := by
  obtain ⟨e1, e2, e3⟩ := span_space (fun c => decide (c ≠ 'D')) s
  have hD : 'D' ∉ s.takeWhile (fun c => decide (c ≠ 'D')) := fun hm => by simpa using e2 _ hm
  unfold fortran fortranNumber grabStrBeforeFirstOccurance grabStrAfterFirstOccurance
  rcases e3 with e3 | ⟨c, u, e3, hc⟩
  · rw [e3, List.append_nil] at e1
    rw [show find (lit "D") s = none from find_char_none 'D' s (by rw [e1]; exact hD), e3, ← e1]
    rfl
  · have hcD : c = 'D' := by simpa using hc
    subst hcD
    rw [e3] at e1
    have hf : find (lit "D") s = some (s.takeWhile (fun c => decide (c ≠ 'D'))).length := by
      conv => lhs; rw [e1]
      exact find_char 'D' _ _ hD
    have hlen : (s.takeWhile (fun c => decide (c ≠ 'D'))).length + 1 ≤ s.length := by
      have := congrArg List.length e1
      simp only [List.length_append, List.length_cons] at this
      omega
    rw [hf]
    simp only []
    rw [substr_ok (by omega), substr_npos h (by simpa using hlen), e3]
    simp only [Res.ok_bind]
    have t1 : List.take (s.takeWhile (fun c => decide (c ≠ 'D'))).length (s.drop 0) = s.takeWhile (fun c => decide (c ≠ 'D')) := by
      rw [List.drop_zero]
      conv => lhs; rw [e1]
      rw [List.takeWhile_append_of_pos (fun a ha => e2 a ha)]
      simp
    have t2 : s.drop ((s.takeWhile (fun c => decide (c ≠ 'D'))).length + 1) = u := by
      conv => lhs; rw [e1]
      rw [List.takeWhile_append_of_pos (fun a ha => e2 a ha)]
      simp
    rw [t1, show ((lit "D").length = 1) from rfl, t2]
    rfl

omit [Zero α] in
theorem fortran_mapM {ws : List Str} (h : ∀ w ∈ ws, Fits w) : (ws.mapM fortran : Res (List α)) = ws.mapM fortranNumber := by
  induction ws with
  | nil => rfl
  | cons w ws ih => rw [List.mapM_cons, List.mapM_cons, fortran_eq (h w (by simp)), ih (fun w hw => h w (by simp [hw]))]

omit [Zero α] in
theorem fortranNumber_cases (s : Str) : OkOrThrow (fortranNumber s : Res α) := by
  unfold fortranNumber
  exact OkOrThrow.bind (Num.stod_cases _) fun a => OkOrThrow.bind (Num.stod_cases _) fun b => .inl ⟨_, rfl⟩

theorem mapM_length {β γ : Type} {f : β → Res γ} {bs : List β} {cs : List γ} (h : bs.mapM f = .ok cs) : cs.length = bs.length := by
  induction bs generalizing cs with
  | nil => simp at h; subst h; rfl
  | cons b bs ih =>
    rw [List.mapM_cons] at h
    obtain ⟨v, -, h⟩ := Res.bind_eq_ok.1 h
    obtain ⟨vs, h1, h⟩ := Res.bind_eq_ok.1 h
    cases h
    simp [ih h1]

theorem stoi_cases (s : Str) : OkOrThrow (stoi s) := by
  unfold stoi
  split
  · exact .inr ⟨_, rfl⟩
  · split
    · exact .inr ⟨_, rfl⟩
    · exact .inl ⟨_, rfl⟩

/-! ### writing entries -/

/-- The matrix holds what is listed. -/
def Listed (m : Mat α) (n : Nat) (cs : List (Nat × Nat × α)) : Prop := IsMat m n n 1 (fun r c _ => entry cs r.toNat c.toNat)

omit [Mul α] [Num α] in
theorem entry_snoc (cs : List (Nat × Nat × α)) (x : Nat × Nat × α) (r c : Nat) :
    entry (cs ++ [x]) r c = if (x.1 = r ∧ x.2.1 = c) ∨ (x.1 = c ∧ x.2.1 = r) then x.2.2 else entry cs r c := by
  unfold entry
  rw [List.reverse_append, List.reverse_singleton, List.singleton_append, List.find?_cons]
  by_cases h : (x.1 = r ∧ x.2.1 = c) ∨ (x.1 = c ∧ x.2.1 = r)
  · rw [if_pos h]
    simp only [h, decide_true]
  · rw [if_neg h]
    simp only [h, decide_false]

omit [Mul α] [Num α] in
theorem Listed.write {m : Mat α} {n : Nat} {cs : List (Nat × Nat × α)} (h : Listed m n cs) {r c : Nat} (hr : 1 ≤ r) (hr' : r ≤ n) (hc : 1 ≤ c)
    (hc' : c ≤ n) (v : α) : ∃ m', (m.setElem2 v r c >>= fun m => if (r : Int) ≠ (c : Int) then m.setElem2 v c r else Res.ok m) = .ok m' ∧
      Listed m' n (cs ++ [(r, c, v)]) := by
  obtain ⟨m1, e1, h1⟩ := IsMat.set2 h (by omega) (i := r) (j := c) (by omega) (by omega) (by omega) (by omega) v
  rw [e1]
  simp only [Res.ok_bind]
  by_cases hrc : r = c
  · subst hrc
    refine ⟨m1, by rw [if_neg (by simp)], ?_⟩
    refine h1.congr fun i j k hi => ?_
    obtain ⟨i1, i2, i3, i4, i5, i6⟩ := hi
    unfold upd
    rw [entry_snoc]
    have hk : k = 1 := by omega
    by_cases hx : i = r ∧ j = r
    · rw [if_pos ⟨hx.1, hx.2, hk⟩, if_pos (.inl ⟨by simp only []; omega, by simp only []; omega⟩)]
    · rw [if_neg (fun h => hx ⟨h.1, h.2.1⟩), if_neg]
      simp only []
      omega
  · rw [if_pos (by omega)]
    obtain ⟨m2, e2, h2⟩ := h1.set2 (by omega) (i := c) (j := r) (by omega) (by omega) (by omega) (by omega) v
    refine ⟨m2, e2, ?_⟩
    refine h2.congr fun i j k hi => ?_
    obtain ⟨i1, i2, i3, i4, i5, i6⟩ := hi
    unfold upd
    rw [entry_snoc]
    have hk : k = 1 := by omega
    by_cases hx : i = c ∧ j = r
    · rw [if_pos ⟨hx.1, hx.2, hk⟩, if_pos (.inr ⟨by simp only []; omega, by simp only []; omega⟩)]
    · rw [if_neg (fun h => hx ⟨h.1, h.2.1⟩)]
      by_cases hy : i = r ∧ j = c
      · rw [if_pos ⟨hy.1, hy.2, hk⟩, if_pos (.inl ⟨by simp only []; omega, by simp only []; omega⟩)]
      · rw [if_neg (fun h => hy ⟨h.1, h.2.1⟩), if_neg]
        simp only []
        omega

omit [Mul α] [Num α] in
theorem Listed.full {m : Mat α} {n : Nat} {cs : List (Nat × Nat × α)} (h : Listed m n cs) {r : Int} (v : α) :
    m.setElem2 v r ((n : Int) + 1) = .exit 1 := by
  apply set2_exit
  rw [IsMat.cols h]
  omega

theorem join {β γ : Type} {x : Res β} {P : Prop} [Decidable P] {y : β → Res β} {b : β} (e : (x >>= fun m => if P then y m else .ok m) = .ok b)
    (f : β → Res γ) : (x >>= fun m => if P then y m >>= f else Res.ok m >>= f) = f b := by
  have := congrArg (· >>= f) e
  simp only [bind_assoc, Res.ok_bind] at this
  rw [← this]
  congr 1
  funext m
  split <;> simp

/-- What row `r` of a block lists, from column `c + 1` on. -/
def rowCells (r c : Nat) (row : List α) : List (Nat × Nat × α) := (row.zipIdx c).map fun v => (r, v.2 + 1, v.1)

omit [Mul α] [Num α] in
theorem overlapSetRow_listed {m : Mat α} {n : Nat} {cs : List (Nat × Nat × α)} (h : Listed m n cs) {p c : Nat} (hp : p < n) (hc : c ≤ n) (row : List α) :
    (c + row.length ≤ n → ∃ m', overlapSetRow p ((c : Int) + 1) row m = .ok m' ∧ Listed m' n (cs ++ rowCells (p + 1) c row)) ∧
    (n < c + row.length → overlapSetRow p ((c : Int) + 1) row m = .exit 1) := by
  induction row generalizing m cs c with
  | nil => exact ⟨fun _ => ⟨m, rfl, by simpa [rowCells] using h⟩, fun h => absurd h (by simp; omega)⟩
  | cons v row ih =>
    by_cases hcn : c = n
    · refine ⟨fun h => absurd h (by simp; omega), fun _ => ?_⟩
      rw [overlapSetRow, hcn, h.full]
      rfl
    · obtain ⟨m', e, h'⟩ := h.write (r := p + 1) (c := c + 1) (by omega) (by omega) (by omega) (by omega) v
      have step : overlapSetRow p ((c : Int) + 1) (v :: row) m = overlapSetRow p (((c + 1 : Nat) : Int) + 1) row m' := by
        rw [overlapSetRow]
        exact join e _
      obtain ⟨i1, i2⟩ := ih h' (c := c + 1) (by omega)
      rw [step]
      refine ⟨fun hl => ?_, fun hl => i2 (by simp at hl; omega)⟩
      obtain ⟨m2, e2, h2⟩ := i1 (by simp at hl; omega)
      refine ⟨m2, e2, ?_⟩
      have : cs ++ [(p + 1, c + 1, v)] ++ rowCells (p + 1) (c + 1) row = cs ++ rowCells (p + 1) c (v :: row) := by
        simp [rowCells]
      rw [← this]
      exact h2

/-- The first `k` rows of block `b`. -/
def blockCells (vals : Nat → List α) (b k : Nat) : List (Nat × Nat × α) := (List.range k).flatMap fun q => rowCells (5 * b + q + 1) (5 * b) (vals (5 * b + q + 1))

omit [Mul α] [Num α] [Zero α] in
theorem blockCells_succ (vals : Nat → List α) (b k : Nat) :
    blockCells vals b (k + 1) = blockCells vals b k ++ rowCells (5 * b + k + 1) (5 * b) (vals (5 * b + k + 1)) := by
  unfold blockCells
  rw [List.range_succ, List.flatMap_append]
  simp

/-- The first `k` blocks. -/
def cellsUpTo (n : Nat) (vals : Nat → Nat → List α) (k : Nat) : List (Nat × Nat × α) := (List.range k).flatMap fun b => blockCells (vals b) b (n - 5 * b)

omit [Mul α] [Num α] [Zero α] in
theorem cellsUpTo_succ (n : Nat) (vals : Nat → Nat → List α) (k : Nat) :
    cellsUpTo n vals (k + 1) = cellsUpTo n vals k ++ blockCells (vals k) k (n - 5 * k) := by
  unfold cellsUpTo
  rw [List.range_succ, List.flatMap_append]
  simp

omit [Mul α] [Num α] [Zero α] in
theorem cellsUpTo_all (n : Nat) (vals : Nat → Nat → List α) : cellsUpTo n vals ((n + 4) / 5) = cells n vals := by
  unfold cellsUpTo cells blockCells rowCells
  refine congrArg (fun f => List.flatMap f _) (funext fun b => congrArg (fun f => List.flatMap f _) (funext fun q => ?_))
  rw [List.zipIdx_eq_map_add, List.map_map]
  refine List.map_congr_left fun x _ => ?_
  simp only [Function.comp]

omit [Mul α] [Num α] in
theorem overlapSetRows_append (p : Int) (a b : List (List α)) (m : Mat α) :
    overlapSetRows p (a ++ b) m = overlapSetRows p a m >>= fun m => overlapSetRows (p + a.length) b m := by
  induction a generalizing p m with
  | nil => simp [overlapSetRows]
  | cons x a ih =>
    rw [List.cons_append, overlapSetRows, overlapSetRows, bind_assoc]
    congr 1
    funext m
    rw [ih, List.length_cons, Int.natCast_add, show p + 1 + (a.length : Int) = p + ((a.length : Int) + ((1 : Nat) : Int)) by omega]

omit [Mul α] [Num α] in
/-- The first `k` rows of the first block. -/
theorem overlapSetRows_listed {m : Mat α} {n : Nat} (h : Listed m n []) (vals : Nat → List α) {k : Nat} (hk : k ≤ n)
    (hv : ∀ r, 1 ≤ r → r ≤ k → (vals r).length ≤ n) :
    ∃ m', overlapSetRows 0 ((List.range k).map fun q => vals (q + 1)) m = .ok m' ∧ Listed m' n (blockCells vals 0 k) := by
  induction k with
  | zero => exact ⟨m, rfl, h⟩
  | succ k ih =>
    obtain ⟨m', e, h'⟩ := ih (by omega) (fun r h1 h2 => hv r h1 (by omega))
    obtain ⟨m2, e2, h2⟩ := (overlapSetRow_listed h' (p := k) (c := 0) (by omega) (by omega) (vals (k + 1))).1 (by have := hv (k + 1) (by omega) (by omega); omega)
    refine ⟨m2, ?_, ?_⟩
    · rw [List.range_succ, List.map_append, overlapSetRows_append, e]
      simp only [List.length_map, List.length_range, Res.ok_bind, List.map_cons, List.map_nil, overlapSetRows]
      rw [show (0 : Int) + (k : Int) = (k : Int) by omega]
      have e2' : overlapSetRow (k : Int) 1 (vals (k + 1)) m' = .ok m2 := e2
      rw [e2']
      rfl
    · rw [blockCells_succ]
      simpa using h2

omit [Mul α] [Num α] in
theorem overlapSetRows_wide {m : Mat α} {n : Nat} (h : Listed m n []) (vals : Nat → List α) {r : Nat} (hr : 1 ≤ r) (hr' : r ≤ n) (hw : n < (vals r).length) :
    overlapSetRows 0 ((List.range n).map fun q => vals (q + 1)) m = .exit 1 := by
  have : ∃ k, k < n ∧ n < (vals (k + 1)).length ∧ ∀ r, 1 ≤ r → r ≤ k → (vals r).length ≤ n := by
    induction r using Nat.strongRecOn with
    | _ r ih =>
      by_cases hc : ∃ r' < r, 1 ≤ r' ∧ n < (vals r').length
      · obtain ⟨r', h1, h2, h3⟩ := hc
        exact ih r' h1 h2 (by omega) h3
      · refine ⟨r - 1, by omega, by rwa [show r - 1 + 1 = r by omega], fun r' h1 h2 => ?_⟩
        exact Nat.le_of_not_lt fun h => hc ⟨r', by omega, h1, h⟩
  obtain ⟨k, h1, h2, h3⟩ := this
  obtain ⟨m', e, h'⟩ := overlapSetRows_listed h vals (k := k) (by omega) h3
  have e2 := (overlapSetRow_listed h' (p := k) (c := 0) (by omega) (by omega) (vals (k + 1))).2 (by omega)
  have e2' : overlapSetRow (k : Int) 1 (vals (k + 1)) m' = .exit 1 := e2
  obtain ⟨d, rfl⟩ : ∃ d, n = k + (d + 1) := ⟨n - k - 1, by omega⟩
  rw [List.range_add, List.map_append, overlapSetRows_append, e]
  simp only [List.length_map, List.length_range, Res.ok_bind]
  rw [List.range_succ_eq_map, show (0 : Int) + (k : Int) = (k : Int) by omega]
  simp only [List.map_cons, Nat.add_zero, overlapSetRows]
  rw [e2']
  rfl

/-! ### a row of a later block -/

theorem overlapCoef_listed {m : Mat α} {n : Nat} {cs : List (Nat × Nat × α)} (h : Listed m n cs) {p c s : Nat} (hp : p < n) (hs : s ≤ c) (hc : c ≤ n)
    (ws : List Str) (hw : ∀ w ∈ ws, Fits w) :
    (∀ e, ((ws.take (n - c + 1)).mapM fortranNumber : Res (List α)) = .throw e →
      ws.foldlM (overlapCoef (s : Int) (p : Int)) (m, ((c - s + 1 : Nat) : Int)) = .throw e) ∧
    (∀ row : List α, (ws.take (n - c + 1)).mapM fortranNumber = .ok row → n < c + row.length →
      ws.foldlM (overlapCoef (s : Int) (p : Int)) (m, ((c - s + 1 : Nat) : Int)) = .exit 1) ∧
    (∀ row : List α, ws.mapM fortranNumber = .ok row → c + row.length ≤ n →
      ∃ m' z, ws.foldlM (overlapCoef (s : Int) (p : Int)) (m, ((c - s + 1 : Nat) : Int)) = .ok (m', z) ∧ Listed m' n (cs ++ rowCells (p + 1) c row)) := by
  induction ws generalizing m cs c with
  | nil =>
    refine ⟨fun e he => by simp at he, fun row hr hl => ?_, fun row hr hl => ⟨m, _, rfl, ?_⟩⟩
    · simp at hr
      subst hr
      simp at hl
      omega
    · simp at hr
      subst hr
      simpa [rowCells] using h
  | cons w ws ih =>
    have hcol : (s : Int) + ((c - s + 1 : Nat) : Int) = ((c + 1 : Nat) : Int) := by omega
    rw [List.take_succ_cons, List.foldlM_cons, List.mapM_cons, List.mapM_cons]
    unfold overlapCoef
    simp only []
    rw [fortran_eq (hw w (by simp)), hcol]
    rcases fortranNumber_cases (α := α) w with ⟨v, hv⟩ | ⟨e0, hv⟩
    · rw [hv]
      simp only [Res.ok_bind]
      by_cases hcn : c = n
      · subst hcn
        rw [show ((c + 1 : Nat) : Int) = (c : Int) + 1 by omega, h.full]
        refine ⟨fun e he => ?_, fun row hr hl => rfl, fun row hr hl => ?_⟩
        · rw [Nat.sub_self, List.take_zero] at he
          cases he
        · obtain ⟨vs, h1, h2⟩ := Res.bind_eq_ok.1 hr
          cases h2
          simp at hl
      · obtain ⟨m', e, h'⟩ := h.write (r := p + 1) (c := c + 1) (by omega) (by omega) (by omega) (by omega) v
        have step : ∀ f : Mat α → Res (Mat α × Int), _ = f m' := fun f => join e f
        have hcast : ((p + 1 : Nat) : Int) = (p : Int) + 1 := by omega
        rw [hcast] at step
        obtain ⟨i1, i2, i3⟩ := ih h' (c := c + 1) (by omega) (by omega) (fun w hw' => hw w (by simp [hw']))
        have hcnt : ((c - s + 1 : Nat) : Int) + 1 = ((c + 1 - s + 1 : Nat) : Int) := by omega
        have hn : n - c = n - (c + 1) + 1 := by omega
        have goal : ∀ (x : Res (Mat α × Int)), List.foldlM (overlapCoef (s : Int) (p : Int)) (m', ((c + 1 - s + 1 : Nat) : Int)) ws = x →
            ((m.setElem2 v ((p : Int) + 1) ((c + 1 : Nat) : Int) >>= fun m => if (p : Int) + 1 ≠ ((c + 1 : Nat) : Int) then m.setElem2 v ((c + 1 : Nat) : Int) ((p : Int) + 1) >>= fun m => Res.ok (m, ((c - s + 1 : Nat) : Int) + 1)
              else Res.ok m >>= fun m => Res.ok (m, ((c - s + 1 : Nat) : Int) + 1)) >>= fun st => List.foldlM (overlapCoef (s : Int) (p : Int)) st ws) = x := by
          intro x hx
          rw [step fun m => Res.ok (m, ((c - s + 1 : Nat) : Int) + 1), Res.ok_bind, hcnt]
          exact hx
        refine ⟨fun e he => ?_, fun row hr hl => ?_, fun row hr hl => ?_⟩
        · refine goal _ (i1 e ?_)
          rw [hn] at he
          rcases mapM_cases fortranNumber (fortranNumber_cases (α := α)) (ws.take (n - (c + 1) + 1)) with ⟨vs, h1⟩ | ⟨e1, h1⟩
          · rw [h1] at he; cases he
          · rw [h1] at he ⊢; cases he; rfl
        · rw [hn] at hr
          obtain ⟨vs, h1, h2⟩ := Res.bind_eq_ok.1 hr
          cases h2
          exact goal _ (i2 vs h1 (by simp at hl; omega))
        · obtain ⟨vs, h1, h2⟩ := Res.bind_eq_ok.1 hr
          cases h2
          obtain ⟨m2, z, e2, h2⟩ := i3 vs h1 (by simp at hl; omega)
          refine ⟨m2, z, goal _ e2, ?_⟩
          have : cs ++ [(p + 1, c + 1, v)] ++ rowCells (p + 1) (c + 1) vs = cs ++ rowCells (p + 1) c (v :: vs) := by
            simp [rowCells]
          rw [← this]
          exact h2
    · rw [hv]
      refine ⟨fun e he => ?_, fun row hr => (by cases hr), fun row hr => (by cases hr)⟩
      cases he
      rfl

/-! ### the lines -/

section
variable {t : Str} {i : Nat} {fids : Nat → Readers.Stream}
  (hg : ∀ j, getline (fids j) (rowLine t (i + 1) j) = (rowLine t (i + 1) (j + 1), fids (j + 1))) (hft : ∀ j, Fits (rowLine t (i + 1) j))
include hg hft

theorem overlapFirst_step (fuel j : Nat) (acc : List (List α)) :
    overlapFirst (fuel + 1) (fids j) (rowLine t (i + 1) j) (numberText t i j) (j : Int) acc = stoi (numberText t i (j + 1)) >>= fun z =>
      if z ≠ (j : Int) + 1 then .ok (fids (j + 1), rowLine t (i + 1) (j + 1), (j : Int), acc)
      else (beyond 1 (rowLine t (i + 1) (j + 1))).mapM fortranNumber >>= fun row =>
        overlapFirst fuel (fids (j + 1)) (rowLine t (i + 1) (j + 1)) (numberText t i (j + 1)) ((j + 1 : Nat) : Int) (acc ++ [row]) := by
  rw [overlapFirst]
  simp only [hg]
  obtain ⟨h1, h2⟩ := taken_first (rowLine t (i + 1) (j + 1)) (numberText t i j)
  have h1' : (extract (openText (rowLine t (i + 1) (j + 1))) (numberText t i j)).1 = numberText t i (j + 1) := by
    rw [h1, numberText]
    cases words (rowLine t (i + 1) (j + 1)) <;> rfl
  rw [h1']
  refine congrArg _ (funext fun z => ?_)
  split
  · rfl
  · rw [h2.rest, foldlM_mapM, fortran_mapM (beyond_fits (hft _)), bind_assoc]
    refine congrArg _ (funext fun row => ?_)
    simp only [Res.ok_bind, List.nil_append]
    rfl

/-- The first block has at least `k` rows. -/
theorem overlapFirst_lines {k : Nat} {vals : Nat → List α} (hc : Counted t i k)
    (hv : ∀ r, 1 ≤ r → r ≤ k → (rowItems t i k 0 r).mapM fortranNumber = .ok (vals r)) (fuel : Nat) :
    overlapFirst (fuel + k) (fids 0) (rowLine t (i + 1) 0) [] 0 [] =
      overlapFirst fuel (fids k) (rowLine t (i + 1) k) (numberText t i k) (k : Int) ((List.range k).map fun q => vals (q + 1)) := by
  induction k generalizing fuel with
  | zero => rfl
  | succ k ih =>
    have := ih (fun j hj => hc j (by omega)) (fun r h1 h2 => hv r h1 (by omega)) (fuel + 1)
    rw [show fuel + (k + 1) = fuel + 1 + k by omega, this, overlapFirst_step hg hft, hc k (by omega)]
    simp only [Res.ok_bind, ne_eq, not_true, if_false]
    have h := hv (k + 1) (by omega) (by omega)
    have hr : rowItems t i (k + 1) 0 (k + 1) = beyond 1 (rowLine t (i + 1) (k + 1)) := by
      unfold rowItems blockLine
      congr 2
      omega
    rw [hr] at h
    rw [h, Res.ok_bind, List.range_succ, List.map_append]
    rfl

theorem overlapFirst_block {n : Nat} {vals : Nat → List α} (h : FirstBlock t i n vals) (fuel : Nat) (hf : n + 1 ≤ fuel) :
    overlapFirst fuel (fids 0) (rowLine t (i + 1) 0) [] 0 [] =
      .ok (fids (n + 1), rowLine t (i + 1) (n + 1), (n : Int), (List.range n).map fun q => vals (q + 1)) := by
  obtain ⟨m, rfl⟩ : ∃ m, fuel = m + 1 + n := ⟨fuel - 1 - n, by omega⟩
  obtain ⟨h1, h2, z, h3, h4⟩ := h
  rw [overlapFirst_lines hg hft h1 h2, overlapFirst_step hg hft, h3, Res.ok_bind, if_pos h4]

/-- The first `k` rows of a later block. -/
theorem overlapBlock_lines {n b : Nat} {vals : Nat → List α} {m : Mat α} {cs : List (Nat × Nat × α)} (h : Listed m n cs) {j : Nat} (hj : j + 1 = blockLine n b)
    {k : Nat} (hk : 5 * b + k ≤ n) (hv : ∀ r, 5 * b < r → r ≤ 5 * b + k → RowFine t i n b r (vals r)) :
    ∃ m', Listed m' n (cs ++ blockCells vals b k) ∧ ∀ rem, overlapBlock ((5 * b : Nat) : Int) (rem + k) ((5 * b : Nat) : Int) (fids j) (rowLine t (i + 1) j) m =
      overlapBlock ((5 * b : Nat) : Int) rem ((5 * b + k : Nat) : Int) (fids (j + k)) (rowLine t (i + 1) (j + k)) m' := by
  induction k with
  | zero => exact ⟨m, by simpa [blockCells] using h, fun rem => rfl⟩
  | succ k ih =>
    obtain ⟨m', h', e⟩ := ih (by omega) (fun r h1 h2 => hv r h1 (by omega))
    obtain ⟨h1, h2⟩ := hv (5 * b + k + 1) (by omega) (by omega)
    have hr : rowItems t i n b (5 * b + k + 1) = beyond 1 (rowLine t (i + 1) (j + k + 1)) := by
      unfold rowItems
      rw [← hj]
      congr 2
      omega
    rw [hr] at h1
    obtain ⟨m2, z, e2, h2'⟩ := (overlapCoef_listed h' (p := 5 * b + k) (c := 5 * b) (s := 5 * b) (by omega) (by omega) (by omega) _ (beyond_fits (hft _))).2.2 _ h1 h2
    refine ⟨m2, by rw [blockCells_succ, ← List.append_assoc]; exact h2', fun rem => ?_⟩
    rw [show rem + (k + 1) = rem + 1 + k by omega, e, overlapBlock]
    simp only [hg]
    rw [(taken_first (rowLine t (i + 1) (j + k + 1)) []).2.rest]
    rw [show (5 * b - 5 * b + 1 : Nat) = 1 by omega] at e2
    have e2' : List.foldlM (overlapCoef ((5 * b : Nat) : Int) ((5 * b + k : Nat) : Int)) (m', (1 : Int)) (beyond 1 (rowLine t (i + 1) (j + k + 1))) = .ok (m2, z) := e2
    rw [e2', Res.ok_bind]
    rfl

/-- Row `r` of a later block fails. -/
theorem overlapBlock_fails {n b : Nat} {vals : Nat → List α} {m : Mat α} {cs : List (Nat × Nat × α)} (h : Listed m n cs) {j : Nat} (hj : j + 1 = blockLine n b)
    {r : Nat} (hr0 : 5 * b < r) (hrn : r ≤ n) (hv : ∀ r', 5 * b < r' → r' < r → RowFine t i n b r' (vals r')) :
    (∀ e, (((rowItems t i n b r).take (n - 5 * b + 1)).mapM fortranNumber : Res (List α)) = .throw e →
      overlapBlock ((5 * b : Nat) : Int) (n - 5 * b) ((5 * b : Nat) : Int) (fids j) (rowLine t (i + 1) j) m = .throw e) ∧
    (∀ row : List α, ((rowItems t i n b r).take (n - 5 * b + 1)).mapM fortranNumber = .ok row → n < 5 * b + row.length →
      overlapBlock ((5 * b : Nat) : Int) (n - 5 * b) ((5 * b : Nat) : Int) (fids j) (rowLine t (i + 1) j) m = .exit 1) := by
  obtain ⟨k, rfl⟩ : ∃ k, r = 5 * b + k + 1 := ⟨r - 5 * b - 1, by omega⟩
  obtain ⟨m', h', e⟩ := overlapBlock_lines hg hft h hj (k := k) (by omega) (fun r h1 h2 => hv r h1 (by omega))
  have hr : rowItems t i n b (5 * b + k + 1) = beyond 1 (rowLine t (i + 1) (j + k + 1)) := by
    unfold rowItems
    rw [← hj]
    congr 2
    omega
  rw [hr]
  obtain ⟨f1, f2, -⟩ := overlapCoef_listed h' (p := 5 * b + k) (c := 5 * b) (s := 5 * b) (by omega) (by omega) (by omega) _ (beyond_fits (k := 1) (hft (j + k + 1)))
  rw [show (5 * b - 5 * b + 1 : Nat) = 1 by omega] at f1 f2
  have goal : ∀ x : Res (Stream × Str × Mat α), (List.foldlM (overlapCoef ((5 * b : Nat) : Int) ((5 * b + k : Nat) : Int)) (m', ((1 : Nat) : Int)) (beyond 1 (rowLine t (i + 1) (j + k + 1))) >>= fun y =>
      overlapBlock ((5 * b : Nat) : Int) (n - 5 * b - k - 1) (((5 * b + k : Nat) : Int) + 1) (fids (j + k + 1)) (rowLine t (i + 1) (j + k + 1)) y.1) = x →
      overlapBlock ((5 * b : Nat) : Int) (n - 5 * b) ((5 * b : Nat) : Int) (fids j) (rowLine t (i + 1) j) m = x := by
    intro x hx
    have := e (n - 5 * b - k - 1 + 1)
    rw [show n - 5 * b - k - 1 + 1 + k = n - 5 * b by omega] at this
    rw [this, overlapBlock]
    simp only [hg]
    rw [(taken_first (rowLine t (i + 1) (j + k + 1)) []).2.rest]
    exact hx
  exact ⟨fun e he => goal _ (by rw [f1 e he]; rfl), fun row h1 h2 => goal _ (by rw [f2 row h1 h2]; rfl)⟩

/-- The blocks up to block `b`. -/
theorem overlapBlocks_lines {n : Nat} {vals : Nat → Nat → List α} {m : Mat α} (h : Listed m n (cellsUpTo n vals 1)) {b : Nat} (hb : 1 ≤ b) (hbn : 5 * (b - 1) ≤ n)
    (hv : ∀ b' r, b' < b → 5 * b' < r → r ≤ n → RowFine t i n b' r (vals b' r)) :
    ∃ m', Listed m' n (cellsUpTo n vals b) ∧ ∀ rem, overlapBlocks (n : Int) (rem + (b - 1)) 5 (fids (n + 1)) (rowLine t (i + 1) (n + 1)) m =
      overlapBlocks (n : Int) rem ((5 * b : Nat) : Int) (fids (blockLine n b - 1)) (rowLine t (i + 1) (blockLine n b - 1)) m' := by
  induction b with
  | zero => omega
  | succ b ih =>
    by_cases hb0 : b = 0
    · subst hb0
      refine ⟨m, h, fun rem => ?_⟩
      have : blockLine n (0 + 1) - 1 = n + 1 := by unfold blockLine blockLine; omega
      rw [this]
      rfl
    · obtain ⟨m1, h1, e1⟩ := ih (by omega) (by omega) (fun b' r h1 h2 h3 => hv b' r (by omega) h2 h3)
      have hpos : ∀ b, 1 ≤ blockLine n b := by intro b; cases b <;> unfold blockLine <;> omega
      obtain ⟨m2, h2, e2⟩ := overlapBlock_lines hg hft h1 (b := b) (vals := vals b) (j := blockLine n b - 1) (by have := hpos b; omega) (k := n - 5 * b) (by simp at hbn; omega)
        (fun r g1 g2 => hv b r (by omega) g1 (by simp at hbn; omega))
      refine ⟨m2, by rw [cellsUpTo_succ]; exact h2, fun rem => ?_⟩
      rw [show rem + (b + 1 - 1) = rem + 1 + (b - 1) by omega, e1, overlapBlocks]
      have hto : ((n : Int) - ((5 * b : Nat) : Int)).toNat = 0 + (n - 5 * b) := by simp at hbn; omega
      rw [hto, e2]
      simp only [overlapBlock, Res.ok_bind, hg]
      have : blockLine n (b + 1) - 1 = blockLine n b - 1 + (n - 5 * b) + 1 := by
        have := hpos b
        rw [blockLine]; omega
      rw [this]
      rfl

end

/-! ### the reader -/

theorem later_count {n : Nat} (hn : 1 ≤ n) : (((n : Int).tdiv 5 + (if (n : Int).tmod 5 > 0 then 1 else 0)) - 1).toNat = (n + 4) / 5 - 1 := by
  have h1 : (n : Int).tdiv 5 = ((n / 5 : Nat) : Int) := rfl
  have h2 : (n : Int).tmod 5 = ((n % 5 : Nat) : Int) := rfl
  rw [h1, h2]
  split <;> omega

theorem overlapReader_eq {t : Str} {i : Nat} {fids : Nat → Readers.Stream} (r : FR (LogData α)) (h0 : getline r.fid [] = (rowLine t (i + 1) 0, fids 0)) (fuel : Nat) :
    overlapReader fuel r = overlapFirst fuel (fids 0) (rowLine t (i + 1) 0) [] 0 [] >>= fun x => Mat.mk2 x.2.2.1 x.2.2.1 >>= fun m =>
      overlapSetRows 0 x.2.2.2 m >>= fun m => overlapBlocks x.2.2.1 ((x.2.2.1.tdiv 5 + (if x.2.2.1.tmod 5 > 0 then 1 else 0)) - 1).toNat 5 x.1 x.2.1 m >>= fun y =>
      .ok { r with fid := y.1, data := { r.data with S := some y.2 } } := by
  unfold overlapReader
  rw [h0]

/-- The state after a good first block. -/
theorem overlapReader_first {t : Str} (hfit : AllFit t) {i n : Nat} (hn : 1 ≤ n) {vals : Nat → Nat → List α} (h : FirstBlock t i n (vals 0))
    (hv : ∀ r, 0 < r → r ≤ n → RowFine t i n 0 r (vals 0 r)) (r : FR (LogData α)) (ha : At t (i + 1) r.fid) :
    ∃ (fids : Nat → Readers.Stream) (m : Mat α), (∀ j, getline (fids j) (rowLine t (i + 1) j) = (rowLine t (i + 1) (j + 1), fids (j + 1))) ∧
      (∀ j, Fits (rowLine t (i + 1) j)) ∧ (∀ j, At t (i + 1 + j + 1) (fids j)) ∧ Listed m n (cellsUpTo n vals 1) ∧ ∀ fuel, n + 1 ≤ fuel →
      overlapReader fuel r = overlapBlocks (n : Int) ((n + 4) / 5 - 1) 5 (fids (n + 1)) (rowLine t (i + 1) (n + 1)) m >>= fun y =>
        .ok { r with fid := y.1, data := { r.data with S := some y.2 } } := by
  obtain ⟨fids, e0, e1, e2, e3⟩ := row_feed t (i + 1) r.fid ha hfit
  obtain ⟨m0, f1, f2⟩ := mk2_isMat (α := α) (r := n) (c := n) (by omega) (by omega)
  have f2' : Listed m0 n [] := f2
  obtain ⟨m, g1, g2⟩ := overlapSetRows_listed f2' (vals 0) (k := n) (by omega) (fun r h1 h2 => by have := (hv r (by omega) h2).2; omega)
  refine ⟨fids, m, e1, e3, e2, by simpa [cellsUpTo] using g2, fun fuel hf => ?_⟩
  rw [overlapReader_eq r e0, overlapFirst_block e1 e3 h fuel hf]
  simp only [Res.ok_bind]
  rw [f1, Res.ok_bind, g1, Res.ok_bind, later_count hn]

theorem overlapReader_says {t : Str} (hfit : AllFit t) {i n : Nat} {vals : Nat → Nat → List α} (h : OverlapAt t i n vals) (r : FR (LogData α)) (ha : At t (i + 1) r.fid) :
    ∃ fid' m, At t (i + 1 + blockLine n ((n + 4) / 5)) fid' ∧ Listed m n (cells n vals) ∧
      ∀ fuel, n + 1 ≤ fuel → overlapReader fuel r = .ok { r with fid := fid', data := { r.data with S := some m } } := by
  obtain ⟨hn, h1, h2⟩ := h
  have hB : 1 ≤ (n + 4) / 5 := by omega
  obtain ⟨fids, m, e1, e2, e3, e4, e5⟩ := overlapReader_first hfit hn h1 (fun r a b => h2 0 r (by omega) (by omega) b) r ha
  obtain ⟨m', g1, g2⟩ := overlapBlocks_lines e1 e2 e4 hB (by omega) h2
  refine ⟨fids (blockLine n ((n + 4) / 5) - 1), m', ?_, by rw [← cellsUpTo_all]; exact g1, fun fuel hf => ?_⟩
  · have h := e3 (blockLine n ((n + 4) / 5) - 1)
    have hpos : 1 ≤ blockLine n ((n + 4) / 5) := by cases (n + 4) / 5 <;> unfold blockLine <;> omega
    have : i + 1 + (blockLine n ((n + 4) / 5) - 1) + 1 = i + 1 + blockLine n ((n + 4) / 5) := by omega
    rwa [this] at h
  · have := g2 0
    rw [Nat.zero_add] at this
    rw [e5 fuel hf, this]
    rfl

theorem overlapReader_later {t : Str} (hfit : AllFit t) {i n b q : Nat} {vals : Nat → Nat → List α} (h : FirstBlock t i n (vals 0)) (hb : 1 ≤ b) (hq : 5 * b < q) (hqn : q ≤ n)
    (hv : ∀ b' r', b' < b ∨ (b' = b ∧ r' < q) → 5 * b' < r' → r' ≤ n → RowFine t i n b' r' (vals b' r')) (r : FR (LogData α)) (ha : At t (i + 1) r.fid) (fuel : Nat) (hf : n + 1 ≤ fuel) :
    (∀ e, (((rowItems t i n b q).take (n - 5 * b + 1)).mapM fortranNumber : Res (List α)) = .throw e → overlapReader fuel r = .throw e) ∧
    (∀ row : List α, ((rowItems t i n b q).take (n - 5 * b + 1)).mapM fortranNumber = .ok row → n < 5 * b + row.length → overlapReader fuel r = .exit 1) := by
  obtain ⟨fids, m, e1, e2, e3, e4, e5⟩ := overlapReader_first hfit (by omega) h (fun r a b => hv 0 r (.inl (by omega)) (by omega) b) r ha
  obtain ⟨m', g1, g2⟩ := overlapBlocks_lines e1 e2 e4 hb (by omega) (fun b' r' a => hv b' r' (.inl a))
  have hpos : 1 ≤ blockLine n b := by cases b <;> unfold blockLine <;> omega
  obtain ⟨f1, f2⟩ := overlapBlock_fails e1 e2 g1 (b := b) (vals := vals b) (j := blockLine n b - 1) (by omega) hq hqn (fun r' a c => hv b r' (.inr ⟨rfl, c⟩) a (by omega))
  have hto : ((n : Int) - ((5 * b : Nat) : Int)).toNat = n - 5 * b := by omega
  have goal : overlapReader fuel r = overlapBlock ((5 * b : Nat) : Int) (n - 5 * b) ((5 * b : Nat) : Int) (fids (blockLine n b - 1)) (rowLine t (i + 1) (blockLine n b - 1)) m' >>= fun x =>
      overlapBlocks (n : Int) ((n + 4) / 5 - 1 - b) (((5 * b : Nat) : Int) + 5) (getline x.1 x.2.1).2 (getline x.1 x.2.1).1 x.2.2 >>= fun y =>
        .ok { r with fid := y.1, data := { r.data with S := some y.2 } } := by
    have := g2 ((n + 4) / 5 - 1 - b + 1)
    rw [show (n + 4) / 5 - 1 - b + 1 + (b - 1) = (n + 4) / 5 - 1 by omega] at this
    rw [e5 fuel hf, this, overlapBlocks, hto, bind_assoc]
  rw [goal]
  exact ⟨fun e he => by rw [f1 e he]; rfl, fun row h1 h2 => by rw [f2 row h1 h2]; rfl⟩

theorem overlapReader_bad {t : Str} (hfit : AllFit t) {i : Nat} {x : Fault} (h : OverlapFault α t i x) : ∃ N, ∀ (r : FR (LogData α)), At t (i + 1) r.fid →
    ∀ fuel, N ≤ fuel → overlapReader fuel r = x.out := by
  cases h with
  | @number n e vals hc hv he =>
    refine ⟨n + 1, fun r ha fuel hf => ?_⟩
    obtain ⟨fids, e0, e1, e2, e3⟩ := row_feed t (i + 1) r.fid ha hfit
    obtain ⟨m, rfl⟩ : ∃ m, fuel = m + 1 + n := ⟨fuel - 1 - n, by omega⟩
    rw [overlapReader_eq r e0, overlapFirst_lines e1 e3 hc hv, overlapFirst_step e1 e3, he]
    rfl
  | @value n e vals hc hv he =>
    refine ⟨n + 1, fun r ha fuel hf => ?_⟩
    obtain ⟨fids, e0, e1, e2, e3⟩ := row_feed t (i + 1) r.fid ha hfit
    obtain ⟨m, rfl⟩ : ∃ m, fuel = m + 1 + n := ⟨fuel - 1 - n, by omega⟩
    have hr : rowItems t i n 0 (n + 1) = beyond 1 (rowLine t (i + 1) (n + 1)) := by
      unfold rowItems blockLine
      congr 2
      omega
    rw [hr] at he
    rw [overlapReader_eq r e0, overlapFirst_lines e1 e3 (fun j hj => hc j (by omega)) hv, overlapFirst_step e1 e3, hc n (by omega), Res.ok_bind, if_neg (by simp), he]
    rfl
  | @empty vals h =>
    refine ⟨1, fun r ha fuel hf => ?_⟩
    obtain ⟨fids, e0, e1, e2, e3⟩ := row_feed t (i + 1) r.fid ha hfit
    rw [overlapReader_eq r e0, overlapFirst_block e1 e3 h fuel hf]
    rfl
  | @wide n q vals hn h hq hqn hw =>
    refine ⟨n + 1, fun r ha fuel hf => ?_⟩
    obtain ⟨fids, e0, e1, e2, e3⟩ := row_feed t (i + 1) r.fid ha hfit
    obtain ⟨m0, f1, f2⟩ := mk2_isMat (α := α) (r := n) (c := n) (by omega) (by omega)
    have f2' : Listed m0 n [] := f2
    rw [overlapReader_eq r e0, overlapFirst_block e1 e3 h fuel hf]
    simp only [Res.ok_bind]
    rw [f1, Res.ok_bind, overlapSetRows_wide f2' vals hq hqn hw]
    rfl
  | @laterValue n b q e vals h hb hq hqn hv he =>
    exact ⟨n + 1, fun r ha fuel hf => (overlapReader_later hfit h hb hq hqn hv r ha fuel hf).1 e he⟩
  | @laterWide n b q vals row h hb hq hqn hv he hw =>
    exact ⟨n + 1, fun r ha fuel hf => (overlapReader_later hfit h hb hq hqn hv r ha fuel hf).2 row he hw⟩

/-! ### nothing else can be -/

theorem least {P : Nat → Prop} (h : ∃ n, P n) : ∃ n, P n ∧ ∀ m < n, ¬ P m := by
  obtain ⟨n, hn⟩ := h
  induction n using Nat.strongRecOn with
  | _ n ih =>
    by_cases hc : ∃ m < n, P m
    · obtain ⟨m, h1, h2⟩ := hc
      exact ih m h1 h2
    · exact ⟨n, hn, fun m hm hp => hc ⟨m, hm, hp⟩⟩

theorem rowLine_over {t : Str} {i j : Nat} (h : (textLines t).length ≤ i + j + 1) : rowLine t i (j + 1) = rowLine t i j := by
  unfold rowLine
  split
  · rw [lineAt_over (i := i + (j + 1)) (by omega), lineAt_over h]
  · rfl

/-- The numbers cannot go on for ever. -/
theorem counted_bound (t : Str) (i : Nat) : ¬ Counted t i ((textLines t).length + 2) := by
  intro h
  have h1 := h (textLines t).length (by omega)
  have h2 := h ((textLines t).length + 1) (by omega)
  have : numberText t i ((textLines t).length + 1 + 1) = numberText t i ((textLines t).length + 1) := by
    rw [numberText, rowLine_over (by omega)]
    cases hw : words (rowLine t (i + 1) ((textLines t).length + 1)) with
    | nil => rfl
    | cons w ws => rw [numberText, hw]; rfl
  rw [this, h1] at h2
  have h3 := Res.ok.inj h2
  omega

theorem overlap_dichotomy (t : Str) (i : Nat) : (∃ f e, i < e ∧ Table (α := α) t i .overlap f e) ∨ ∃ x, BadTable α t i .overlap x := by
  have hv : ∃ vals : Nat → Nat → Nat → List α, ∀ n b r v, (rowItems t i n b r).mapM fortranNumber = .ok v → vals n b r = v :=
    ⟨fun n b r => match ((rowItems t i n b r).mapM fortranNumber : Res (List α)) with | .ok v => v | _ => [], fun n b r v h => by simp only [h]⟩
  obtain ⟨vals, hv⟩ := hv
  have hcase := fun n b r => mapM_cases fortranNumber (fortranNumber_cases (α := α)) (rowItems t i n b r)
  have h0 : ∀ n n' r, rowItems t i n 0 r = rowItems t i n' 0 r := fun n n' r => rfl
  -- the first block
  have hfirst : (∃ n, ∃ v : Nat → List α, FirstBlock t i n v) ∨ ∃ x, OverlapFault α t i x := by
    obtain ⟨n, hn, hmin⟩ := least (P := fun n => ¬ (Counted t i n ∧ ∀ r, 1 ≤ r → r ≤ n → (rowItems t i n 0 r).mapM fortranNumber = .ok (vals 0 0 r)))
      ⟨_, fun h => counted_bound t i h.1⟩
    cases n with
    | zero => exact absurd ⟨fun j hj => absurd hj (by omega), fun r h1 h2 => absurd h1 (by omega)⟩ hn
    | succ n =>
      obtain ⟨h1, h2⟩ := Classical.not_not.1 (hmin n (by omega))
      rcases stoi_cases (numberText t i (n + 1)) with ⟨z, hz⟩ | ⟨e, he⟩
      · by_cases hzn : z = (n : Int) + 1
        · subst hzn
          have hc : Counted t i (n + 1) := by
            intro j hj
            by_cases hjn : j = n
            · subst hjn; exact hz
            · exact h1 j (by omega)
          rcases hcase n 0 (n + 1) with ⟨v, h3⟩ | ⟨e, h3⟩
          · refine absurd ⟨hc, fun r g1 g2 => ?_⟩ hn
            by_cases hr : r = n + 1
            · subst hr
              rw [hv 0 0 (n + 1) v h3]
              exact h3
            · exact h2 r g1 (by omega)
          · exact .inr ⟨_, .value hc h2 h3⟩
        · exact .inl ⟨n, vals 0 0, h1, h2, z, hz, hzn⟩
      · exact .inr ⟨_, .number h1 h2 he⟩
  rcases hfirst with ⟨n, v0, hF⟩ | ⟨x, hx⟩
  swap
  · exact .inr ⟨_, .overlap hx⟩
  have hv0 : ∀ r, 1 ≤ r → r ≤ n → vals n 0 r = v0 r := fun r h1 h2 => hv n 0 r _ (hF.2.1 r h1 h2)
  have hF' : FirstBlock t i n (vals n 0) := ⟨hF.1, fun r h1 h2 => by rw [hv0 r h1 h2]; exact hF.2.1 r h1 h2, hF.2.2⟩
  by_cases hn : n = 0
  · subst hn
    exact .inr ⟨_, .overlap (.empty hF)⟩
  by_cases hw : ∃ r, 1 ≤ r ∧ r ≤ n ∧ n < (vals n 0 r).length
  · obtain ⟨r, h1, h2, h3⟩ := hw
    exact .inr ⟨_, .overlap (.wide (by omega) hF' h1 h2 h3)⟩
  have hfine0 : ∀ r, 0 < r → r ≤ n → RowFine t i n 0 r (vals n 0 r) := fun r h1 h2 =>
    ⟨hF'.2.1 r h1 h2, by have : ¬ n < (vals n 0 r).length := fun h => hw ⟨r, h1, h2, h⟩
                         omega⟩
  by_cases hall : ∀ b r, 5 * b < r → r ≤ n → RowFine t i n b r (vals n b r)
  · exact .inl ⟨_, _, by omega, .overlap ⟨by omega, hF', fun b r _ => hall b r⟩⟩
  · have hex : ∃ b r, 5 * b < r ∧ r ≤ n ∧ ¬ RowFine t i n b r (vals n b r) := by
      apply Classical.byContradiction
      intro hc
      exact hall fun b r h1 h2 => Classical.byContradiction fun h3 => hc ⟨b, r, h1, h2, h3⟩
    obtain ⟨b, ⟨r0, hr0⟩, hbmin⟩ := least hex
    obtain ⟨r, ⟨h1, h2, h3⟩, hrmin⟩ := least (P := fun r => 5 * b < r ∧ r ≤ n ∧ ¬ RowFine t i n b r (vals n b r)) ⟨r0, hr0⟩
    have hb : 1 ≤ b := by
      cases b with
      | zero => exact absurd (hfine0 r (by omega) h2) h3
      | succ b => omega
    have hprev : ∀ b' r', b' < b ∨ (b' = b ∧ r' < r) → 5 * b' < r' → r' ≤ n → RowFine t i n b' r' (vals n b' r') := by
      intro b' r' hc g1 g2
      apply Classical.byContradiction
      intro hnf
      rcases hc with hc | ⟨rfl, hc⟩
      · exact hbmin b' hc ⟨r', g1, g2, hnf⟩
      · exact hrmin r' hc ⟨g1, g2, hnf⟩
    rcases mapM_cases fortranNumber (fortranNumber_cases (α := α)) ((rowItems t i n b r).take (n - 5 * b + 1)) with ⟨row, hrow⟩ | ⟨e, he⟩
    · by_cases hlen : n < 5 * b + row.length
      · exact .inr ⟨_, .overlap (.laterWide hF' hb h1 h2 hprev hrow hlen)⟩
      · exfalso
        have hl : ((rowItems t i n b r).take (n - 5 * b + 1)).length = row.length := (mapM_length hrow).symm
        have htake : (rowItems t i n b r).take (n - 5 * b + 1) = rowItems t i n b r := by
          rw [List.length_take] at hl
          exact List.take_of_length_le (by omega)
        rw [htake] at hrow
        refine h3 ⟨by rw [hv n b r _ hrow]; exact hrow, by rw [hv n b r _ hrow]; omega⟩
    · exact .inr ⟨_, .overlap (.laterValue hF' hb h1 h2 hprev he)⟩

end Verif.LogLines
