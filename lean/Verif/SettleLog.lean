import Verif.SettleLemmas
/-
How many passes the loops of the log reader can take.
-/
namespace Verif.Readers
open Strings Log Pun

/-! ### words -/

theorem extract_stream (s : Stream) (w w' : Str) : (extract s w).2 = (extract s w').2 := by
  unfold extract
  split
  · rfl
  · split <;> rfl

/-- What is extracted is a word of the text, or what was there before. -/
theorem extract_dep (s : Stream) : (∀ w, (extract s w).1 = w) ∨ ∃ u, ∀ w, (extract s w).1 = u := by
  unfold extract
  split
  · exact .inl fun _ => rfl
  · split
    · exact .inl fun _ => rfl
    · exact .inr ⟨_, fun _ => rfl⟩

/-- logreader.cpp:155-160: the element type taken from a line. -/
def nextElem (line e : Str) : Str :=
  let x1 := extract (openText line) e
  let x2 := extract x1.2 x1.1
  trimmed (extract x2.2 x2.1).1

theorem trimmed_idem (s : Str) : trimmed (trimmed s) = trimmed s := by
  obtain ⟨l, r, e, h1, h2, h3⟩ := C45_trim s
  have := C45_trim_unique (l := []) (m := trimmed s) (r := []) (by simp) (by simp) h3
  simpa using this

theorem nextElem_idem (line e : Str) : nextElem line (nextElem line e) = nextElem line e := by
  unfold nextElem
  simp only
  generalize ha : openText line = s1
  have hs : ∀ e, (extract s1 e).2 = (extract s1 []).2 := fun e => extract_stream _ _ _
  simp only [hs]
  generalize hb : (extract s1 []).2 = s2
  have hs2 : ∀ e, (extract s2 e).2 = (extract s2 []).2 := fun e => extract_stream _ _ _
  simp only [hs2]
  generalize hc : (extract s2 []).2 = s3
  rcases extract_dep s1 with h1 | ⟨u, h1⟩ <;> rcases extract_dep s2 with h2 | ⟨v, h2⟩ <;> rcases extract_dep s3 with h3 | ⟨w, h3⟩ <;>
    simp only [h1, h2, h3, trimmed_idem]

section
variable {α : Type} [Mul α] [Num α] [Zero α]

/-! ### populations -/

/-- The numbers of a further line of an atom. -/
def lineVals (line : Str) : Res (List α) := restOf (pushBack Num.stod) (extract (extract (openText line) []).2 []).2 []

theorem aoRows_pass {atom : Int} {e : Str} {e2 : Str} (h : isAlphabetical e2 = false) (r : FR (LogData α)) (line t : Str) (n : Nat) :
    aoRows atom e (n + 1) r line e2 t = (lineVals line >>= fun vals =>
      if foundSubStrInStr (getline r.fid line).1 aoEnd then
        .ok (⟨(getline r.fid line).2, r.pos, { r.data with orb := r.data.orb.set (atom, e) (extract (extract (openText line) []).2 t).1 vals }⟩,
          (getline r.fid line).1, true)
      else aoRows atom e n ⟨(getline r.fid line).2, r.pos,
          { r.data with orb := r.data.orb.set (atom, e) (extract (extract (openText line) []).2 t).1 vals }⟩
        (getline r.fid line).1 (nextElem (getline r.fid line).1 e2) (extract (extract (openText line) []).2 t).1) := by
  rw [aoRows]
  rw [if_neg (by simp [h])]
  have : (lineVals line : Res (List α)) = restOf (pushBack Num.stod) (extract (extract (openText line) []).2 t).2 [] := by
    unfold lineVals
    rw [extract_stream (extract (openText line) []).2 [] t]
  rw [this]
  rfl

theorem aoRows_stop {atom : Int} {e : Str} {e2 : Str} (h : isAlphabetical e2 = true) (r : FR (LogData α)) (line t : Str) (n : Nat) :
    aoRows atom e (n + 1) r line e2 t = .ok (r, line, false) := by
  rw [aoRows, if_pos h]

/-- At the end of the text, a line that is no end line and names no element is read again for ever. -/
theorem aoRows_loops (atom : Int) (e line e2 : Str) (h1 : isAlphabetical e2 = false) {vals : List α} (h2 : lineVals line = .ok vals)
    (h3 : foundSubStrInStr line aoEnd = false) (h4 : nextElem line e2 = e2) : ∀ (n : Nat) (r : FR (LogData α)) (t : Str), ¬ Fine r.fid →
    aoRows atom e n r line e2 t = .diverge
  | 0, _, _, _ => rfl
  | n + 1, r, t, hg => by
    rw [aoRows_pass h1, h2]
    simp only [Res.ok_bind, getline_not_good hg, h3, h4, Bool.false_eq_true, if_false]
    exact aoRows_loops atom e line e2 h1 h2 h3 h4 n _ _ (fail_not_good _)

theorem aoRows_stuck (atom : Int) (e line e2 t : Str) (r : FR (LogData α)) (hg : ¬ Fine r.fid) :
    Settled 2 (fun n => aoRows atom e n r line e2 t) := by
  cases h1 : isAlphabetical e2 with
  | true => exact settled_now (aoRows_stop h1 r line t) 1
  | false =>
    refine settled_step (aoRows_pass h1 r line t) fun vals hv => ?_
    simp only [getline_not_good hg]
    refine Settled.ite (fun _ => Settled.const _ _) fun h3 => ?_
    cases h5 : isAlphabetical (nextElem line e2) with
    | true => exact settled_now (aoRows_stop h5 _ _ _) 0
    | false =>
      exact Hangs.settled (fun n => aoRows_loops atom e line _ h5 hv (by simpa using h3) (nextElem_idem line e2) n _ _ (fail_not_good _)) _

theorem aoRows_settled (atom : Int) (e : Str) : ∀ (k : Nat) (r : FR (LogData α)) (line e2 t : Str), room r.fid ≤ k →
    Settled (k + 2) (fun n => aoRows atom e n r line e2 t) := by
  intro k
  induction k with
  | zero =>
    intro r line e2 t hk
    have hg : ¬ Fine r.fid := fun h => by rw [room_good h] at hk; omega
    exact aoRows_stuck atom e line e2 t r hg
  | succ k ih =>
    intro r line e2 t hk
    by_cases hg : Fine r.fid
    · cases h1 : isAlphabetical e2 with
      | true => exact settled_now (aoRows_stop h1 r line t) _
      | false =>
        refine settled_step (aoRows_pass h1 r line t) fun vals hv => ?_
        refine Settled.ite (fun _ => Settled.const _ _) fun h3 => ?_
        exact ih _ _ _ _ (by have := getline_room hg line; show room (getline r.fid line).2 ≤ k; omega)
    · exact (aoRows_stuck atom e line e2 t r hg).mono (by omega)

theorem aoRows_room (atom : Int) (e : Str) : ∀ (n : Nat) (r : FR (LogData α)) (line e2 t : Str) (r' : FR (LogData α)) (line' : Str) (b : Bool),
    aoRows atom e n r line e2 t = .ok (r', line', b) → room r'.fid ≤ room r.fid
  | 0, _, _, _, _, _, _, _, h => by cases h
  | n + 1, r, line, e2, t, r', line', b, h => by
    cases h1 : isAlphabetical e2 with
    | true => rw [aoRows_stop h1] at h; cases h; exact Nat.le_refl _
    | false =>
      rw [aoRows_pass h1] at h
      obtain ⟨vals, -, h⟩ := Res.bind_eq_ok.1 h
      have hr := room_getline r.fid line
      split at h
      · cases h; exact hr
      · have := aoRows_room atom e n _ _ _ _ _ _ _ h
        exact Nat.le_trans this hr

/-- At the end of the text, what happens does not depend on what has been read. -/
theorem aoRows_again {line : Str} : ∀ (m : Nat) (atom : Int) (e e2 t : Str) (r r1 : FR (LogData α)) (line1 : Str), ¬ Fine r.fid →
    aoRows atom e m r line e2 t = .ok (r1, line1, false) →
    line1 = line ∧ ¬ Fine r1.fid ∧ ∀ (n : Nat) (atom' : Int) (e' t' : Str) (r' : FR (LogData α)), ¬ Fine r'.fid →
      aoRows atom' e' n r' line e2 t' = .diverge ∨ ∃ r2, ¬ Fine r2.fid ∧ aoRows atom' e' n r' line e2 t' = .ok (r2, line, false)
  | 0, _, _, _, _, _, _, _, _, h => by cases h
  | m + 1, atom, e, e2, t, r, r1, line1, hg, h => by
    cases h1 : isAlphabetical e2 with
    | true =>
      rw [aoRows_stop h1] at h
      cases h
      refine ⟨rfl, hg, fun n atom' e' t' r' hg' => ?_⟩
      cases n with
      | zero => exact .inl rfl
      | succ n => exact .inr ⟨r', hg', aoRows_stop h1 r' _ t' n⟩
    | false =>
      rw [aoRows_pass h1] at h
      obtain ⟨vals, hv, h⟩ := Res.bind_eq_ok.1 h
      simp only [getline_not_good hg] at h
      split at h
      · cases h
      · rename_i h3
        obtain ⟨rfl, i2, i3⟩ := aoRows_again m _ _ _ _ _ _ _ (fail_not_good r.fid) h
        refine ⟨rfl, i2, fun n atom' e' t' r' hg' => ?_⟩
        cases n with
        | zero => exact .inl rfl
        | succ n =>
          rw [aoRows_pass h1, hv]
          simp only [Res.ok_bind, getline_not_good hg', if_neg h3]
          exact i3 n _ _ _ _ (fail_not_good r'.fid)

/-- What the first line of an atom determines. -/
def atomHead (line : Str) : Str × Str × Res (List α) :=
  let iss := (extract (openText line) []).2
  let x1 := extract iss []
  let x2 := extract x1.2 x1.1
  let x3 := extract x2.2 []
  (x2.1, x3.1, restOf (pushBack Num.stod) x3.2 [])

theorem aoAtoms_pass (atom : Int) (r : FR (LogData α)) (line : Str) (n : Nat) :
    aoAtoms (n + 1) atom r line = ((atomHead line).2.2 >>= fun vals => vecAt (getline r.fid line).1 9 >>= fun c9 =>
      vecAt (getline r.fid line).1 10 >>= fun c10 =>
      aoRows atom (atomHead (α := α) line).1 n ⟨(getline r.fid line).2, r.pos, { r.data with orb := r.data.orb.set (atom, (atomHead (α := α) line).1) (atomHead (α := α) line).2.1 vals }⟩
        (getline r.fid line).1 (trimmed [c9, c10]) (atomHead (α := α) line).2.1 >>= fun x =>
      if (if foundSubStrInStr x.2.1 aoEnd then true else x.2.2) = true then .ok x.1 else aoAtoms n (atom + 1) x.1 x.2.1) := rfl

theorem aoAtoms_loops {line : Str} {vals : List α} (h1 : (atomHead line).2.2 = .ok vals) {c9 c10 : Char} (h2 : vecAt line 9 = .ok c9)
    (h3 : vecAt line 10 = .ok c10) (h4 : foundSubStrInStr line aoEnd = false)
    (h5 : ∀ (n : Nat) (atom' : Int) (e' t' : Str) (r' : FR (LogData α)), ¬ Fine r'.fid →
      aoRows atom' e' n r' line (trimmed [c9, c10]) t' = .diverge ∨
        ∃ r2, ¬ Fine r2.fid ∧ aoRows atom' e' n r' line (trimmed [c9, c10]) t' = .ok (r2, line, false)) :
    ∀ (n : Nat) (atom : Int) (r : FR (LogData α)), ¬ Fine r.fid → aoAtoms n atom r line = .diverge
  | 0, _, _, _ => rfl
  | n + 1, atom, r, hg => by
    rw [aoAtoms_pass]
    simp only [getline_not_good hg, h1, h2, h3, Res.ok_bind]
    rcases h5 n atom (atomHead (α := α) line).1 (atomHead (α := α) line).2.1 ⟨{ r.fid with fail := true }, r.pos,
      { r.data with orb := r.data.orb.set (atom, (atomHead (α := α) line).1) (atomHead (α := α) line).2.1 vals }⟩ (fail_not_good _) with e | ⟨r2, g2, e⟩
    · rw [e]; rfl
    · rw [e]
      simp only [Res.ok_bind, h4, Bool.false_eq_true, if_false]
      exact aoAtoms_loops h1 h2 h3 h4 h5 n _ _ g2

theorem aoAtoms_stuck (atom : Int) (r : FR (LogData α)) (line : Str) (hg : ¬ Fine r.fid) : Settled 3 (fun n => aoAtoms n atom r line) := by
  refine settled_step (aoAtoms_pass atom r line) fun vals hv => ?_
  simp only [getline_not_good hg]
  refine Settled.bind (Settled.const _ _) fun c9 h9 => Settled.bind (Settled.const _ _) fun c10 h10 => ?_
  refine Settled.bind (aoRows_stuck _ _ _ _ _ _ (fail_not_good _)) fun x hx => ?_
  obtain ⟨r1, line1, b⟩ := x
  refine Settled.ite (fun _ => Settled.const _ _) fun hn => ?_
  have hb : b = false := by
    cases b
    · rfl
    · exfalso; apply hn; simp
  subst hb
  obtain ⟨rfl, g1, h5⟩ := aoRows_again _ _ _ _ _ _ _ _ (fail_not_good r.fid) hx
  refine Hangs.settled (fun n => ?_) _
  exact aoAtoms_loops hv h9 h10 (by
    cases hf : foundSubStrInStr line1 aoEnd
    · rfl
    · exfalso; apply hn; simp [hf]) h5 n _ _ g1

theorem aoAtoms_settled : ∀ (k : Nat) (atom : Int) (r : FR (LogData α)) (line : Str), room r.fid ≤ k →
    Settled (k + 3) (fun n => aoAtoms n atom r line) := by
  intro k
  induction k with
  | zero =>
    intro atom r line hk
    have hg : ¬ Fine r.fid := fun h => by rw [room_good h] at hk; omega
    exact aoAtoms_stuck atom r line hg
  | succ k ih =>
    intro atom r line hk
    by_cases hg : Fine r.fid
    · have hr := getline_room hg line
      refine settled_step (aoAtoms_pass atom r line) fun vals hv => ?_
      refine Settled.bind (Settled.const _ _) fun c9 h9 => Settled.bind (Settled.const _ _) fun c10 h10 => ?_
      refine Settled.bind ((aoRows_settled _ _ k _ _ _ _ (by show room (getline r.fid line).2 ≤ k; omega)).mono (by omega)) fun x hx => ?_
      obtain ⟨r1, line1, b⟩ := x
      have hr1 := aoRows_room _ _ _ _ _ _ _ _ _ _ hx
      refine Settled.ite (fun _ => Settled.const _ _) fun hn => ?_
      exact ih _ _ _ (by show room r1.fid ≤ k; simp only at hr1; omega)
    · exact (aoAtoms_stuck atom r line hg).mono (by omega)

theorem aoAtoms_room : ∀ (n : Nat) (atom : Int) (r : FR (LogData α)) (line : Str) (r' : FR (LogData α)),
    aoAtoms n atom r line = .ok r' → room r'.fid ≤ room r.fid
  | 0, _, _, _, _, h => by cases h
  | n + 1, atom, r, line, r', h => by
    rw [aoAtoms_pass] at h
    obtain ⟨vals, -, h⟩ := Res.bind_eq_ok.1 h
    obtain ⟨c9, -, h⟩ := Res.bind_eq_ok.1 h
    obtain ⟨c10, -, h⟩ := Res.bind_eq_ok.1 h
    obtain ⟨⟨r1, line1, b⟩, e, h⟩ := Res.bind_eq_ok.1 h
    have h1 := aoRows_room _ _ _ _ _ _ _ _ _ _ e
    have h2 := room_getline r.fid line
    dsimp only at h h1
    by_cases hc : (if foundSubStrInStr line1 aoEnd = true then true else b) = true
    · rw [if_pos hc] at h; cases h; omega
    · rw [if_neg hc] at h
      have := aoAtoms_room n _ _ _ _ h
      omega

/-! ### overlap -/

theorem overlapFirst_pass (fid : Stream) (line c : Str) (k : Int) (rows : List (List α)) (n : Nat) :
    overlapFirst (n + 1) fid line c k rows = (stoi (extract (openText (getline fid line).1) c).1 >>= fun i =>
      if i ≠ k + 1 then .ok ((getline fid line).2, (getline fid line).1, k, rows)
      else restOf (pushBack fortran) (extract (openText (getline fid line).1) c).2 [] >>= fun row =>
        overlapFirst n (getline fid line).2 (getline fid line).1 (extract (openText (getline fid line).1) c).1 (k + 1) (rows ++ [row])) := rfl

theorem overlapFirst_stuck (fid : Stream) (hg : ¬ Fine fid) (line c : Str) (k : Int) (rows : List (List α)) :
    Settled 2 (fun n => overlapFirst n fid line c k rows) := by
  refine settled_step (overlapFirst_pass fid line c k rows) fun i hi => ?_
  simp only [getline_not_good hg] at hi ⊢
  refine Settled.ite (fun _ => Settled.const _ _) fun hk => ?_
  refine Settled.bind (Settled.const _ _) fun row _ => ?_
  refine settled_now (x := .ok ({ fid with fail := true }, line, k + 1, rows ++ [row])) (fun n => ?_) 0
  rw [overlapFirst_pass]
  simp only [getline_not_good (fail_not_good fid)]
  have : (extract (openText line) (extract (openText line) c).1).1 = (extract (openText line) c).1 := by
    rcases extract_dep (openText line) with h | ⟨u, h⟩ <;> simp only [h]
  rw [this, hi]
  simp only [Res.ok_bind]
  rw [if_pos (by omega)]

theorem overlapFirst_settled : ∀ (j : Nat) (fid : Stream) (line c : Str) (k : Int) (rows : List (List α)), room fid ≤ j →
    Settled (j + 2) (fun n => overlapFirst n fid line c k rows) := by
  intro j
  induction j with
  | zero =>
    intro fid line c k rows hk
    exact overlapFirst_stuck fid (fun h => by rw [room_good h] at hk; omega) line c k rows
  | succ j ih =>
    intro fid line c k rows hk
    by_cases hg : Fine fid
    · have hr := getline_room hg line
      refine settled_step (overlapFirst_pass fid line c k rows) fun i hi => ?_
      refine Settled.ite (fun _ => Settled.const _ _) fun hk => ?_
      exact Settled.bind (Settled.const _ _) fun row _ => ih _ _ _ _ _ (by omega)
    · exact (overlapFirst_stuck fid hg line c k rows).mono (by omega)

theorem overlapFirst_room : ∀ (n : Nat) (fid : Stream) (line c : Str) (k : Int) (rows : List (List α)) (x : Stream × Str × Int × List (List α)),
    overlapFirst n fid line c k rows = .ok x → room x.1 ≤ room fid
  | 0, _, _, _, _, _, _, h => by cases h
  | n + 1, fid, line, c, k, rows, x, h => by
    rw [overlapFirst_pass] at h
    obtain ⟨i, -, h⟩ := Res.bind_eq_ok.1 h
    have hr := room_getline fid line
    split at h
    · cases h; exact hr
    · obtain ⟨row, -, h⟩ := Res.bind_eq_ok.1 h
      have := overlapFirst_room n _ _ _ _ _ _ h
      omega

theorem overlapBlock_room (start : Int) : ∀ (n : Nat) (k : Int) (fid : Stream) (line : Str) (m : Mat α) (x : Stream × Str × Mat α),
    overlapBlock start n k fid line m = .ok x → room x.1 ≤ room fid
  | 0, _, _, _, _, _, h => by cases h; exact Nat.le_refl _
  | n + 1, k, fid, line, m, x, h => by
    rw [overlapBlock] at h
    have hr := room_getline fid line
    obtain ⟨y, -, h⟩ := Res.bind_eq_ok.1 h
    exact Nat.le_trans (overlapBlock_room start n _ _ _ _ _ h) hr

theorem overlapBlocks_room (count : Int) : ∀ (n : Nat) (k : Int) (fid : Stream) (line : Str) (m : Mat α) (x : Stream × Mat α),
    overlapBlocks count n k fid line m = .ok x → room x.1 ≤ room fid
  | 0, _, _, _, _, _, h => by cases h; exact Nat.le_refl _
  | n + 1, k, fid, line, m, x, h => by
    rw [overlapBlocks] at h
    obtain ⟨⟨f1, l1, m1⟩, e, h⟩ := Res.bind_eq_ok.1 h
    have h1 := overlapBlock_room _ _ _ _ _ _ _ e
    have hr := room_getline f1 l1
    exact Nat.le_trans (overlapBlocks_room count n _ _ _ _ _ h) (Nat.le_trans hr h1)

/-! ### coordinates -/

/-- The three numbers of a row of the table. -/
def coordVals (line : Str) : Res (α × α × α) :=
  vecAt (splitSt line) 3 >>= fun x => Num.stod x >>= fun x => vecAt (splitSt line) 4 >>= fun y => Num.stod y >>= fun y =>
    vecAt (splitSt line) 5 >>= fun z => Num.stod z >>= fun z => .ok (x, y, z)

theorem coordLoop_step (fid : Stream) (line : Str) (h : foundSubStrInStr line coordEnd = false) (X Y Z : List α) (n : Nat) :
    coordLoop (n + 1) fid line X Y Z = (coordVals line >>= fun v =>
      coordLoop n (getline fid line).2 (getline fid line).1 (X ++ [v.1]) (Y ++ [v.2.1]) (Z ++ [v.2.2])) := by
  rw [coordLoop, if_neg (by simp [h])]
  unfold coordVals
  simp only [bind_assoc, Res.ok_bind]

theorem coordLoop_stop (fid : Stream) (line : Str) (h : foundSubStrInStr line coordEnd = true) (X Y Z : List α) (n : Nat) :
    coordLoop (n + 1) fid line X Y Z = .ok (fid, X, Y, Z) := by
  rw [coordLoop, if_pos h]

theorem coordLoop_loops {line : Str} (h : foundSubStrInStr line coordEnd = false) {v : α × α × α} (hv : coordVals line = .ok v) :
    ∀ (n : Nat) (fid : Stream) (X Y Z : List α), ¬ Fine fid → coordLoop n fid line X Y Z = .diverge
  | 0, _, _, _, _, _ => rfl
  | n + 1, fid, X, Y, Z, hg => by
    rw [coordLoop_step fid line h, hv]
    simp only [Res.ok_bind, getline_not_good hg]
    exact coordLoop_loops h hv n _ _ _ _ (fail_not_good _)

theorem coordLoop_settled : ∀ (k : Nat) (fid : Stream) (line : Str) (X Y Z : List α), room fid ≤ k →
    Settled (k + 1) (fun n => coordLoop n fid line X Y Z) := by
  have stuck : ∀ (fid : Stream) (line : Str) (X Y Z : List α), ¬ Fine fid → Settled 1 (fun n => coordLoop n fid line X Y Z) := by
    intro fid line X Y Z hg
    cases h : foundSubStrInStr line coordEnd with
    | true => exact settled_now (coordLoop_stop fid line h X Y Z) 0
    | false =>
      cases e : (coordVals line : Res (α × α × α)) with
      | ok v => exact Hangs.settled (fun n => coordLoop_loops h e n fid X Y Z hg) _
      | _ => exact settled_step (coordLoop_step fid line h X Y Z) (fun a ha => by rw [e] at ha; cases ha)
  intro k
  induction k with
  | zero =>
    intro fid line X Y Z hk
    exact stuck fid line X Y Z (fun h => by rw [room_good h] at hk; omega)
  | succ k ih =>
    intro fid line X Y Z hk
    by_cases hg : Fine fid
    · cases h : foundSubStrInStr line coordEnd with
      | true => exact settled_now (coordLoop_stop fid line h X Y Z) _
      | false =>
        have hr := getline_room hg line
        exact settled_step (coordLoop_step fid line h X Y Z) fun a ha => ih _ _ _ _ _ (by omega)
    · exact (stuck fid line X Y Z hg).mono (by omega)

theorem coordLoop_room : ∀ (n : Nat) (fid : Stream) (line : Str) (X Y Z : List α) (x : Stream × List α × List α × List α),
    coordLoop n fid line X Y Z = .ok x → room x.1 ≤ room fid
  | 0, _, _, _, _, _, _, h => by cases h
  | n + 1, fid, line, X, Y, Z, x, h => by
    cases hf : foundSubStrInStr line coordEnd with
    | true => rw [coordLoop_stop fid line hf] at h; cases h; exact Nat.le_refl _
    | false =>
      rw [coordLoop_step fid line hf] at h
      obtain ⟨v, -, h⟩ := Res.bind_eq_ok.1 h
      have := coordLoop_room n _ _ _ _ _ _ h
      have hr := room_getline fid line
      omega

end
end Verif.Readers
