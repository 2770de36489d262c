import Verif.IntsRead
import Verif.Spec.IntsRead
import Verif.IntsJobLemmas
import Verif.LogLinesA
import Verif.Safe
import Mathlib.Tactic.ByContra
/-
The readers with checked and with unbounded `int`s.
-/
namespace Verif.Ints
open QC Readers Strings LogLines
variable {α : Type} [Mul α] [Num α] [Zero α]

/-! ### where reading is -/

/-- What is still to be read consists of lines of `t`. -/
structure Inside (t : Str) (fid : Readers.Stream) : Prop where
  good : fid.eof = false → fid.fail = false → ∃ pre, textLines t = pre ++ textLines fid.text
  len : fid.text.length ≤ t.length

theorem inside_start (t : Str) : Inside t (openText t) := ⟨fun _ _ => ⟨[], rfl⟩, Nat.le_refl _⟩

theorem Inside.getline {t : Str} {fid : Readers.Stream} (h : Inside t fid) (prev : Str) :
    Inside t (getline fid prev).2 ∧ ((getline fid prev).1 ∈ textLines t ∨ (getline fid prev).1 = prev) ∧
    ((Readers.getline fid prev).2.fail = false → (Readers.getline fid prev).1.length + (Readers.getline fid prev).2.text.length ≤ fid.text.length) := by
  by_cases hb : fid.eof = true ∨ fid.fail = true
  · rw [getline_bad hb]
    exact ⟨⟨fun _ h => (by cases h), h.len⟩, .inr rfl, fun h => (by cases h)⟩
  · have he : fid.eof = false := by cases h : fid.eof; rfl; exact absurd (.inl h) hb
    have hf : fid.fail = false := by cases h : fid.fail; rfl; exact absurd (.inr h) hb
    obtain ⟨pre, e⟩ := h.good he hf
    have hlen := h.len
    have : fid = openText fid.text := by
      cases fid; simp only at he hf; subst he hf; rfl
    generalize fid.text = rest at *
    subst this
    rcases text_cases rest with rfl | ⟨hne, hl'⟩ | ⟨l, r, hl', rfl⟩
    · rw [getline_end]
      refine ⟨⟨fun h => (by cases h), by simp⟩, .inl ?_, fun h => (by cases h)⟩
      rw [e]; simp [textLines]
    · rw [getline_last hl' hne]
      refine ⟨⟨fun h => (by cases h), by simp⟩, .inl ?_, fun _ => (by simp)⟩
      rw [e, textLines_last hl']; simp
    · rw [getline_line hl']
      refine ⟨⟨fun _ _ => ⟨pre ++ [l], ?_⟩, ?_⟩, .inl ?_, fun _ => ?_⟩
      · rw [e, textLines_line hl']; simp [openText]
      · simp [openText] at hlen ⊢; omega
      · rw [e, textLines_line hl']; simp
      · simp [openText]

theorem Inside.tellg {t : Str} {fid : Readers.Stream} (h : Inside t fid) : Inside t (tellg fid).2 := by
  unfold Readers.tellg
  split
  · exact ⟨fun _ h => (by cases h), h.len⟩
  · exact h

/-- The same for a position. -/
def InsidePos (t : Str) (pos : Option Str) : Prop := ∀ p, pos = some p → Inside t (openText p)

theorem Inside.tellg_pos {t : Str} {fid : Readers.Stream} (h : Inside t fid) : InsidePos t (Readers.tellg fid).1 := by
  unfold Readers.tellg
  split
  · intro p e; cases e
  · rename_i hb
    intro p e
    cases e
    rw [Bool.or_eq_true] at hb
    refine ⟨fun _ _ => ?_, h.len⟩
    refine h.good ?_ ?_
    · cases h : fid.eof; rfl; exact absurd (.inl h) hb
    · cases h : fid.fail; rfl; exact absurd (.inr h) hb

theorem Inside.seekg {t : Str} {fid : Readers.Stream} (h : Inside t fid) {pos : Option Str} (hp : InsidePos t pos) : Inside t (seekg fid pos) := by
  unfold Readers.seekg
  split
  · rename_i hf
    exact ⟨fun _ h => (by simp only [hf] at h; cases h), h.len⟩
  · cases pos with
    | none => exact ⟨fun _ h => (by cases h), h.len⟩
    | some p => exact hp p rfl

/-- A reader inside the text. -/
def Within' {σ : Type} (t : Str) (r : FR σ) : Prop := Inside t r.fid ∧ InsidePos t r.pos

/-- A line that was read: one of the text, or empty. -/
def LineOf (t : Str) (l : Str) : Prop := l ∈ textLines t ∨ l = []

theorem LineOf.next {t : Str} {fid : Readers.Stream} (h : Inside t fid) {prev : Str} (hp : LineOf t prev) : LineOf t (getline fid prev).1 := by
  rcases (h.getline prev).2.1 with e | e
  · exact .inl e
  · rw [e]; exact hp

theorem LineOf.len {t l : Str} (h : LineOf t l) : l.length ≤ t.length := by
  rcases h with h | rfl
  · exact textLines_len t l h
  · simp

theorem Inside.at {t : Str} {fid : Readers.Stream} (h : Inside t fid) : ∃ i, At t i fid := by
  by_cases hb : fid.eof = true ∨ fid.fail = true
  · exact ⟨_, .inr ⟨hb, Nat.le_refl _⟩⟩
  · have he : fid.eof = false := by cases h : fid.eof; rfl; exact absurd (.inl h) hb
    have hf : fid.fail = false := by cases h : fid.fail; rfl; exact absurd (.inr h) hb
    obtain ⟨pre, e⟩ := h.good he hf
    refine ⟨pre.length, .inl ⟨pre, fid.text, e, rfl, ?_⟩⟩
    cases fid; simp only at he hf; subst he hf; rfl

/-! ### the loop of `read` -/

/-- Section readers that do the same, and stay inside the text. -/
def SameReaders {σ : Type} (t : Str) (N : Nat) (f g : SectionReader σ) : Prop :=
  ∀ fuel, fuel < N → ∀ r, Within' t r → f fuel r = g fuel r ∧ ∀ r', g fuel r = .ok r' → Within' t r'

theorem readLoop_same {σ : Type} {t : Str} {N : Nat} {s s' : Sections σ} (hh : s.headers = s'.headers)
    (hr : ∀ tag, (s.readers.get tag = none ∧ s'.readers.get tag = none) ∨ ∃ f g, s.readers.get tag = some f ∧ s'.readers.get tag = some g ∧ SameReaders t N f g) :
    ∀ fuel, fuel ≤ N → ∀ (r : FR σ) line, Within' t r → readLoop s fuel r line = readLoop s' fuel r line := by
  intro fuel
  induction fuel with
  | zero => intros; rfl
  | succ fuel ih =>
    intro hf r line hw
    have h1 := (hw.1.getline line).1
    rw [readLoop, readLoop]
    cases hg : Readers.getline r.fid line with
    | mk l fid =>
      rw [hg] at h1
      simp only at h1 ⊢
      split
      · rfl
      rw [hh]
      have hw' : Within' t ({ r with fid := fid } : FR σ) := ⟨h1, hw.2⟩
      have next : ∀ r : FR σ, Within' t r → readLoop s fuel { r with fid := (tellg r.fid).2, pos := (tellg r.fid).1 } l =
          readLoop s' fuel { r with fid := (tellg r.fid).2, pos := (tellg r.fid).1 } l := fun r h => ih (by omega) _ _ ⟨h.1.tellg, h.1.tellg_pos⟩
      split
      · unfold readSection
        rcases hr (startSection s'.headers l) with ⟨e1, e2⟩ | ⟨f, g, e1, e2, h⟩
        · rw [e1, e2]; rfl
        · rw [e1, e2]
          obtain ⟨q1, q2⟩ := h fuel (by omega) _ hw'
          exact bind_eq q1 fun r' e => next r' (q2 r' e)
      · simp only [Res.ok_bind]
        exact next _ hw'

/-! ### the functions of the atoms -/

omit [Zero α] in
theorem aoRows_inside {t : Str} (atom : Int) (elem : Str) : ∀ (fuel : Nat) (r : FR (LogData α)) (line e2 o : Str), Within' t r → ∀ x,
    aoRows atom elem fuel r line e2 o = .ok x → Within' t x.1 := by
  intro fuel
  induction fuel with
  | zero => intro r line e2 o _ x e; cases e
  | succ fuel ih =>
    intro r line e2 o hw x e
    rw [Readers.aoRows] at e
    split at e
    · cases e; exact hw
    obtain ⟨vals, -, e⟩ := Res.bind_eq_ok.1 e
    dsimp only at e
    have h1 : Inside t (getline r.fid line).2 := (hw.1.getline line).1
    split at e
    · cases e; exact ⟨h1, hw.2⟩
    · exact ih _ _ _ _ (by exact ⟨h1, hw.2⟩) x e

theorem aoAtoms_same {t : Str} : ∀ (fuel : Nat) (atom : Int) (r : FR (LogData α)) (line : Str), -2147483648 ≤ atom → atom + fuel ≤ 2147483647 → Within' t r →
    aoAtoms fuel atom r line = Readers.aoAtoms fuel atom r line ∧ ∀ r', Readers.aoAtoms fuel atom r line = .ok r' → Within' t r' := by
  intro fuel
  induction fuel with
  | zero => intro atom r line _ _ _; exact ⟨rfl, fun r' e => by cases e⟩
  | succ fuel ih =>
    intro atom r line h1 h2 hw
    have hi : Inside t (getline r.fid line).2 := (hw.1.getline line).1
    constructor
    · rw [aoAtoms, Readers.aoAtoms]
      dsimp only
      refine bind_eq rfl fun vals _ => bind_eq rfl fun c9 _ => bind_eq rfl fun c10 _ => bind_eq rfl fun x ex => ?_
      have hx := aoRows_inside (t := t) atom _ fuel _ _ _ _ (by exact ⟨hi, hw.2⟩) x ex
      unfold add
      rw [fit_ok (by omega) (by omega)]
      simp only [Res.ok_bind]
      generalize (if foundSubStrInStr x.2.1 aoEnd = true then true else x.2.2) = b
      cases b
      · exact (ih _ _ _ (by omega) (by push_cast at h2; omega) hx).1
      · rfl
    · intro r' e
      rw [Readers.aoAtoms] at e
      dsimp only at e
      obtain ⟨vals, -, e⟩ := Res.bind_eq_ok.1 e
      obtain ⟨c9, -, e⟩ := Res.bind_eq_ok.1 e
      obtain ⟨c10, -, e⟩ := Res.bind_eq_ok.1 e
      obtain ⟨x, ex, e⟩ := Res.bind_eq_ok.1 e
      have hx := aoRows_inside (t := t) atom _ fuel _ _ _ _ (by exact ⟨hi, hw.2⟩) x ex
      generalize (if foundSubStrInStr x.2.1 aoEnd = true then true else x.2.2) = b at e
      cases b
      · exact (ih _ _ _ (by omega) (by push_cast at h2; omega) hx).2 r' e
      · cases e; exact hx

theorem aoReader_same (t : Str) : SameReaders t 2147483647 (aoReader (α := α)) Readers.aoReader := by
  intro fuel hf r hw
  have h1 := (hw.1.getline []).1
  have h2 := (h1.getline (getline r.fid []).1).1
  exact aoAtoms_same fuel 1 _ _ (by omega) (by omega) ⟨h2, hw.2⟩

/-! ### the overlap matrix -/

omit [Zero α] in
theorem overlapFirst_same {t : Str} (hm : ¬ ∃ i : Nat, ∀ k : Nat, k < 46341 → StartsWith (k + 1) (lineAt t (i + k))) {i : Nat} {fids : Nat → Readers.Stream}
    (hg : ∀ j, getline (fids j) (Pun.rowLine t i j) = (Pun.rowLine t i (j + 1), fids (j + 1))) :
    ∀ (fuel : Nat) (n : Nat) (countC : Str) (rows : List (List α)), Inside t (fids n) → (n = 0 → countC = []) → (0 < n → stoi countC = .ok n) →
    (∀ k < n, StartsWith (k + 1) (Pun.rowLine t i (k + 1))) → n ≤ 46340 → n = rows.length →
    overlapFirst fuel (fids n) (Pun.rowLine t i n) countC n rows = Readers.overlapFirst fuel (fids n) (Pun.rowLine t i n) countC n rows ∧
    ∀ x, Readers.overlapFirst fuel (fids n) (Pun.rowLine t i n) countC n rows = .ok x →
      Inside t x.1 ∧ 0 ≤ x.2.2.1 ∧ x.2.2.1 ≤ 46340 ∧ x.2.2.1 = x.2.2.2.length := by
  intro fuel
  induction fuel with
  | zero => intro n countC rows _ _ _ _ _ _; exact ⟨rfl, fun x e => by cases e⟩
  | succ fuel ih =>
    intro n countC rows hi c0 c1 hs h1 hn
    have hi' : Inside t (fids (n + 1)) := by
      have := (hi.getline (Pun.rowLine t i n)).1
      rwa [hg n] at this
    have first := (taken_first (Pun.rowLine t i (n + 1)) countC).1
    have key : ∀ c, stoi (extract (openText (Pun.rowLine t i (n + 1))) countC).1 = .ok c → c = (n : Int) + 1 →
        (∀ k < n + 1, StartsWith (k + 1) (Pun.rowLine t i (k + 1))) ∧ n + 1 ≤ 46340 := by
      intro c ec hc
      rw [first] at ec
      have hsw : StartsWith (n + 1) (Pun.rowLine t i (n + 1)) := by
        cases hw : words (Pun.rowLine t i (n + 1)) with
        | nil =>
          rw [hw] at ec
          simp only [List.getElem?_nil, Option.getD_none] at ec
          rcases Nat.eq_zero_or_pos n with h0 | h0
          · rw [c0 h0] at ec; cases ec
          · rw [c1 h0] at ec
            cases ec
            omega
        | cons w ws =>
          rw [hw] at ec
          simp only [List.getElem?_cons_zero, Option.getD_some] at ec
          exact ⟨w, ws, hw, by rw [ec, hc]⟩
      have all : ∀ k < n + 1, StartsWith (k + 1) (Pun.rowLine t i (k + 1)) := by
        intro k hk
        by_cases hkn : k = n
        · rw [hkn]; exact hsw
        · exact hs k (by omega)
      refine ⟨all, ?_⟩
      by_contra hbig
      refine hm ⟨i + 1, fun k hk => ?_⟩
      have := all k (by omega)
      unfold Pun.rowLine at this
      split at this
      · rwa [show i + 1 + k = i + (k + 1) by omega]
      · obtain ⟨w, ws, e, -⟩ := this
        cases e
    constructor
    · rw [overlapFirst, Readers.overlapFirst, hg n]
      dsimp only
      refine bind_eq rfl fun c ec => ?_
      unfold add
      rw [fit_ok (by omega) (by omega)]
      simp only [Res.ok_bind]
      split
      · rfl
      · rename_i hcn
        have hcn : c = (n : Int) + 1 := Classical.not_not.1 hcn
        obtain ⟨k1, k2⟩ := key c ec hcn
        refine bind_eq rfl fun row _ => ?_
        have := (ih (n + 1) _ (rows ++ [row]) hi' (fun h => absurd h (by omega)) (fun _ => by rw [ec, hcn]; rfl) k1 k2 (by simp [hn])).1
        exact this
    · intro x e
      rw [Readers.overlapFirst, hg n] at e
      dsimp only at e
      obtain ⟨c, ec, e⟩ := Res.bind_eq_ok.1 e
      split at e
      · cases e; exact ⟨hi', by dsimp only; omega, by dsimp only; omega, by dsimp only; omega⟩
      · rename_i hcn
        have hcn : c = (n : Int) + 1 := Classical.not_not.1 hcn
        obtain ⟨k1, k2⟩ := key c ec hcn
        obtain ⟨row, -, e⟩ := Res.bind_eq_ok.1 e
        exact (ih (n + 1) _ (rows ++ [row]) hi' (fun h => absurd h (by omega)) (fun _ => by rw [ec, hcn]; rfl) k1 k2 (by simp [hn])).2 x e

omit [Mul α] [Num α] [Zero α] in
theorem set2_range {m m' : Mat α} {v : α} {i j : Int} (e : m.setElem2 v i j = .ok m') : i ≤ m.rows ∧ j ≤ m.cols := by
  unfold Mat.setElem2 at e
  repeat' split at e
  all_goals first | cases e | skip
  omega

omit [Mul α] [Num α] [Zero α] in
theorem square_sized {n : Int} {m : Mat α} (h : Dims n n 1 m) (h1 : 1 ≤ n) (h2 : n ≤ 46340) : IntSized m :=
  h.sized h1 h1 (by omega) (by
    have : n * n ≤ 46340 * 46340 := Int.mul_le_mul h2 h2 (by omega) (by omega)
    omega)

omit [Mul α] [Num α] [Zero α] in
/-- Setting an element and its mirror image. -/
theorem setBoth_same {n : Int} (h1 : 1 ≤ n) (h2 : n ≤ 46340) (v : α) (i j : Int) {m : Mat α} (hd : Dims n n 1 m) :
    (setElem2 m v i j >>= fun m => if i ≠ j then setElem2 m v j i else Res.ok m) = (m.setElem2 v i j >>= fun m => if i ≠ j then m.setElem2 v j i else Res.ok m) ∧
    ∀ m', (m.setElem2 v i j >>= fun m => if i ≠ j then m.setElem2 v j i else Res.ok m) = .ok m' → Dims n n 1 m' ∧ i ≤ n ∧ j ≤ n := by
  constructor
  · refine bind_eq (setElem2_eq (square_sized hd h1 h2) v i j) fun m' e => ?_
    rw [setElem2_eq (square_sized (hd.set2 e) h1 h2)]
  · intro m' e
    obtain ⟨m1, e1, e⟩ := Res.bind_eq_ok.1 e
    have := set2_range e1
    rw [hd.1, hd.2.1] at this
    refine ⟨?_, this⟩
    split at e
    · exact (hd.set2 e1).set2 e
    · cases e; exact hd.set2 e1

omit [Mul α] [Num α] [Zero α] in
theorem overlapSetRow_same {n : Int} (h1 : 1 ≤ n) (h2 : n ≤ 46340) (rowInd : Int) (hr : 0 ≤ rowInd) (hr' : rowInd ≤ n) : ∀ (row : List α) (col : Int) (m : Mat α),
    0 ≤ col → col ≤ n + 1 → Dims n n 1 m → overlapSetRow rowInd col row m = Readers.overlapSetRow rowInd col row m ∧
    ∀ m', Readers.overlapSetRow rowInd col row m = .ok m' → Dims n n 1 m' := by
  intro row
  induction row with
  | nil => intro col m _ _ hd; exact ⟨rfl, fun m' e => by cases e; exact hd⟩
  | cons v row ih =>
    intro col m c0 c1 hd
    obtain ⟨s1, s2⟩ := setBoth_same h1 h2 v (rowInd + 1) col hd
    have e1 : overlapSetRow rowInd col (v :: row) m = (setElem2 m v (rowInd + 1) col >>= fun m => if rowInd + 1 ≠ col then setElem2 m v col (rowInd + 1) else Res.ok m) >>=
        fun m => overlapSetRow rowInd (col + 1) row m := by
      rw [overlapSetRow, fit_ok (by omega) (by omega), Res.ok_bind, fit_ok (by omega) (by omega), Res.ok_bind, bind_assoc]
      refine congrArg _ (funext fun m => ?_)
      dsimp only
      split <;> rfl
    have e2 : Readers.overlapSetRow rowInd col (v :: row) m = (m.setElem2 v (rowInd + 1) col >>= fun m => if rowInd + 1 ≠ col then m.setElem2 v col (rowInd + 1) else Res.ok m) >>=
        fun m => Readers.overlapSetRow rowInd (col + 1) row m := by
      rw [Readers.overlapSetRow, bind_assoc]
      refine congrArg _ (funext fun m => ?_)
      dsimp only
      split <;> rfl
    rw [e1, e2]
    constructor
    · refine bind_eq s1 fun m' e => ?_
      obtain ⟨hd', -, hc⟩ := s2 m' e
      exact (ih _ _ (by omega) (by omega) hd').1
    · intro m' e
      obtain ⟨m1, e1, e⟩ := Res.bind_eq_ok.1 e
      obtain ⟨hd', -, hc⟩ := s2 m1 e1
      exact (ih _ _ (by omega) (by omega) hd').2 m' e

omit [Mul α] [Num α] [Zero α] in
theorem overlapSetRows_same {n : Int} (h1 : 1 ≤ n) (h2 : n ≤ 46340) : ∀ (rows : List (List α)) (rowInd : Int) (m : Mat α),
    0 ≤ rowInd → rowInd + rows.length ≤ n → Dims n n 1 m → overlapSetRows rowInd rows m = Readers.overlapSetRows rowInd rows m ∧
    ∀ m', Readers.overlapSetRows rowInd rows m = .ok m' → Dims n n 1 m' := by
  intro rows
  induction rows with
  | nil => intro rowInd m _ _ hd; exact ⟨rfl, fun m' e => by cases e; exact hd⟩
  | cons row rows ih =>
    intro rowInd m r0 r1 hd
    rw [List.length_cons] at r1
    push_cast at r1
    obtain ⟨s1, s2⟩ := overlapSetRow_same h1 h2 rowInd r0 (by omega) row 1 m (by omega) (by omega) hd
    rw [overlapSetRows, Readers.overlapSetRows]
    constructor
    · exact bind_eq s1 fun m' e => (ih _ _ (by omega) (by omega) (s2 m' e)).1
    · intro m' e
      obtain ⟨m1, e1, e⟩ := Res.bind_eq_ok.1 e
      exact (ih _ _ (by omega) (by omega) (s2 m1 e1)).2 m' e

omit [Mul α] [Num α] [Zero α] in
/-- A loop whose body does the same. -/
theorem restLoop_same {β : Type} (P : β → Prop) {f g : β → Str → Res β} (h : ∀ acc s, P acc → f acc s = g acc s ∧ ∀ a, g acc s = .ok a → P a) :
    ∀ (n : Nat) (iss : Readers.Stream) (acc : β), P acc → restLoop f n iss acc = restLoop g n iss acc ∧ ∀ a, restLoop g n iss acc = .ok a → P a := by
  intro n
  induction n with
  | zero => intro iss acc _; exact ⟨rfl, fun a e => by cases e⟩
  | succ n ih =>
    intro iss acc hp
    rw [restLoop, restLoop]
    split
    · exact ⟨rfl, fun a e => by cases e; exact hp⟩
    · dsimp only
      obtain ⟨q1, q2⟩ := h acc (extract iss []).1 hp
      constructor
      · exact bind_eq q1 fun a e => (ih _ _ (q2 a e)).1
      · intro a e
        obtain ⟨a1, e1, e⟩ := Res.bind_eq_ok.1 e
        exact (ih _ _ (q2 a1 e1)).2 a e

omit [Zero α] in
theorem overlapCoef_same {n : Int} (h1 : 1 ≤ n) (h2 : n ≤ 46340) (start sec : Int) (hs : 0 ≤ start) (hc : 0 ≤ sec) (hc' : sec < n) (st : Mat α × Int) (s : Str)
    (h : Dims n n 1 st.1 ∧ 1 ≤ st.2 ∧ start + st.2 ≤ max (n + 1) (start + 1)) (hs' : start ≤ n + 5) :
    overlapCoef start sec st s = Readers.overlapCoef start sec st s ∧
    ∀ a, Readers.overlapCoef start sec st s = .ok a → Dims n n 1 a.1 ∧ 1 ≤ a.2 ∧ start + a.2 ≤ max (n + 1) (start + 1) := by
  obtain ⟨hd, k1, k2⟩ := h
  have k3 : start + st.2 ≤ n + 6 := by omega
  have e1 : overlapCoef start sec st s = fortran s >>= fun v => (setElem2 st.1 v (sec + 1) (start + st.2) >>= fun m =>
      if sec + 1 ≠ start + st.2 then setElem2 m v (start + st.2) (sec + 1) else Res.ok m) >>= fun m => .ok (m, st.2 + 1) := by
    unfold overlapCoef add
    rw [fit_ok (by omega) (by omega), fit_ok (by omega) (by omega), fit_ok (by omega) (by omega)]
    simp only [Res.ok_bind, bind_assoc]
    refine congrArg _ (funext fun v => congrArg _ (funext fun m => ?_))
    split <;> rfl
  have e2 : Readers.overlapCoef start sec st s = fortran s >>= fun v => (st.1.setElem2 v (sec + 1) (start + st.2) >>= fun m =>
      if sec + 1 ≠ start + st.2 then m.setElem2 v (start + st.2) (sec + 1) else Res.ok m) >>= fun m => .ok (m, st.2 + 1) := by
    unfold Readers.overlapCoef
    simp only [bind_assoc]
    refine congrArg _ (funext fun v => congrArg _ (funext fun m => ?_))
    split <;> rfl
  rw [e1, e2]
  constructor
  · exact bind_eq rfl fun v _ => bind_eq (setBoth_same h1 h2 v _ _ hd).1 fun _ _ => rfl
  · intro a e
    obtain ⟨v, -, e⟩ := Res.bind_eq_ok.1 e
    obtain ⟨m', e', e⟩ := Res.bind_eq_ok.1 e
    obtain ⟨q1, q2, q3⟩ := (setBoth_same h1 h2 v _ _ hd).2 m' e'
    cases e
    exact ⟨q1, by dsimp only; omega, by dsimp only; omega⟩

omit [Zero α] in
theorem overlapBlock_same {t : Str} {n : Int} (h1 : 1 ≤ n) (h2 : n ≤ 46340) (start : Int) (hs : 0 ≤ start) (hs' : start ≤ n + 5) :
    ∀ (k : Nat) (sec : Int) (fid : Readers.Stream) (line : Str) (m : Mat α), 0 ≤ sec → sec + k ≤ max n sec → Inside t fid → Dims n n 1 m →
    overlapBlock start k sec fid line m = Readers.overlapBlock start k sec fid line m ∧
    ∀ x, Readers.overlapBlock start k sec fid line m = .ok x → Inside t x.1 ∧ Dims n n 1 x.2.2 := by
  intro k
  induction k with
  | zero => intro sec fid line m _ _ hi hd; exact ⟨rfl, fun x e => by cases e; exact ⟨hi, hd⟩⟩
  | succ k ih =>
    intro sec fid line m c0 c1 hi hd
    push_cast at c1
    have hi' := (hi.getline line).1
    obtain ⟨q1, q2⟩ := restLoop_same (fun st : Mat α × Int => Dims n n 1 st.1 ∧ 1 ≤ st.2 ∧ start + st.2 ≤ max (n + 1) (start + 1))
      (fun st s h => overlapCoef_same h1 h2 start sec hs c0 (by omega) st s h hs')
      ((extract (openText (getline fid line).1) []).2.text.length + 2) (extract (openText (getline fid line).1) []).2 (m, 1) ⟨hd, by dsimp only; omega, by dsimp only; omega⟩
    rw [overlapBlock, Readers.overlapBlock]
    dsimp only
    unfold restOf
    constructor
    · refine bind_eq q1 fun a e => ?_
      unfold add
      rw [fit_ok (by omega) (by omega)]
      simp only [Res.ok_bind]
      exact (ih _ _ _ _ (by omega) (by omega) hi' (q2 a e).1).1
    · intro x e
      obtain ⟨a, e', e⟩ := Res.bind_eq_ok.1 e
      exact (ih _ _ _ _ (by omega) (by omega) hi' (q2 a e').1).2 x e

omit [Zero α] in
theorem overlapBlocks_same {t : Str} {n : Int} (h1 : 1 ≤ n) (h2 : n ≤ 46340) : ∀ (k : Nat) (sec start : Int) (fid : Readers.Stream) (line : Str) (m : Mat α),
    0 ≤ start → start + 5 * k ≤ n + 5 → 0 ≤ sec → sec + k ≤ 2000000 → Inside t fid → Dims n n 1 m →
    overlapBlocks n k sec start fid line m = Readers.overlapBlocks n k start fid line m ∧
    ∀ x, Readers.overlapBlocks n k start fid line m = .ok x → Inside t x.1 ∧ Dims n n 1 x.2 := by
  intro k
  induction k with
  | zero => intro sec start fid line m _ _ _ _ hi hd; exact ⟨rfl, fun x e => by cases e; exact ⟨hi, hd⟩⟩
  | succ k ih =>
    intro sec start fid line m s0 s1 c0 c1 hi hd
    push_cast at s1 c1
    obtain ⟨q1, q2⟩ := overlapBlock_same (t := t) h1 h2 start s0 (by omega) (n - start).toNat start fid line m s0 (by omega) hi hd
    rw [overlapBlocks, Readers.overlapBlocks]
    constructor
    · refine bind_eq q1 fun x e => ?_
      obtain ⟨hi', hd'⟩ := q2 x e
      dsimp only
      unfold add
      rw [fit_ok (by omega) (by omega), fit_ok (by omega) (by omega)]
      simp only [Res.ok_bind]
      exact (ih _ _ _ _ _ (by omega) (by omega) (by omega) (by omega) (hi'.getline x.2.1).1 hd').1
    · intro x e
      obtain ⟨a, e', e⟩ := Res.bind_eq_ok.1 e
      obtain ⟨hi', hd'⟩ := q2 a e'
      exact (ih (sec + 1) _ _ _ _ (by omega) (by omega) (by omega) (by omega) (hi'.getline a.2.1).1 hd').2 x e

theorem sections_eq {n : Int} (h1 : 0 ≤ n) (h2 : n ≤ 46340) : sections n = .ok (n.tdiv 5 + (if n.tmod 5 > 0 then 1 else 0)) := by
  have e1 : n.tdiv 5 = n / 5 := Int.tdiv_eq_ediv_of_nonneg h1
  unfold sections add
  rw [e1, fit_ok (by omega) (by omega)]
  simp only [Res.ok_bind]
  split
  · rw [fit_ok (by omega) (by omega)]
  · rw [Int.add_zero]

theorem overlapReader_same {t : Str} (h : ModestLog t) (N : Nat) : SameReaders t N (overlapReader (α := α)) Readers.overlapReader := by
  intro fuel _ r hw
  have hi := (hw.1.getline []).1
  obtain ⟨i, hat⟩ := hw.1.at
  obtain ⟨fids, g0, hg, -, -⟩ := row_feed t i r.fid hat (allFit_of (by unfold Fits; have := h.size; omega))
  rw [g0] at hi
  have q := overlapFirst_same (α := α) h.rows hg fuel 0 [] [] hi (fun _ => rfl) (fun h => absurd h (by omega)) (fun k hk => absurd hk (by omega)) (by omega) rfl
  obtain ⟨q1, q2⟩ := q
  have step : ∀ x : Readers.Stream × Str × Int × List (List α), Inside t x.1 ∧ 0 ≤ x.2.2.1 ∧ x.2.2.1 ≤ 46340 ∧ x.2.2.1 = x.2.2.2.length → ∀ m : Mat α, Mat.mk2 x.2.2.1 x.2.2.1 = .ok m →
      overlapSetRows 0 x.2.2.2 m = Readers.overlapSetRows 0 x.2.2.2 m ∧ 1 ≤ x.2.2.1 ∧ ∀ m', Readers.overlapSetRows 0 x.2.2.2 m = .ok m' → Dims x.2.2.1 x.2.2.1 1 m' := by
    rintro x ⟨-, x2, x3, x4⟩ m e
    obtain ⟨g1, -, g3⟩ := mk2_dims e
    obtain ⟨s1, s2⟩ := overlapSetRows_same g1 x3 x.2.2.2 0 m (by omega) (by omega) g3
    exact ⟨s1, g1, s2⟩
  have blocks : ∀ x : Readers.Stream × Str × Int × List (List α), Inside t x.1 ∧ 0 ≤ x.2.2.1 ∧ x.2.2.1 ≤ 46340 ∧ x.2.2.1 = x.2.2.2.length → 1 ≤ x.2.2.1 → ∀ m : Mat α, Dims x.2.2.1 x.2.2.1 1 m →
      let k := (x.2.2.1.tdiv 5 + (if x.2.2.1.tmod 5 > 0 then 1 else 0) - 1).toNat
      overlapBlocks x.2.2.1 k 2 5 x.1 x.2.1 m = Readers.overlapBlocks x.2.2.1 k 5 x.1 x.2.1 m ∧
      ∀ y, Readers.overlapBlocks x.2.2.1 k 5 x.1 x.2.1 m = .ok y → Inside t y.1 ∧ Dims x.2.2.1 x.2.2.1 1 y.2 := by
    rintro x ⟨x1, x2, x3, x4⟩ h1 m hd
    have e1 : x.2.2.1.tdiv 5 = x.2.2.1 / 5 := Int.tdiv_eq_ediv_of_nonneg x2
    have e2 : x.2.2.1.tmod 5 = x.2.2.1 % 5 := Int.tmod_eq_emod_of_nonneg x2
    refine overlapBlocks_same h1 x3 _ 2 5 x.1 x.2.1 m (by omega) ?_ (by omega) ?_ x1 hd
    · rw [e1, e2]; split <;> omega
    · rw [e1, e2]; split <;> omega
  unfold overlapReader Readers.overlapReader
  rw [g0]
  dsimp only
  constructor
  · refine bind_eq q1 fun x e => ?_
    have hx := q2 x e
    refine bind_eq (mk2_eq fun _ _ => ?_) fun m em => ?_
    · have : x.2.2.1 * x.2.2.1 ≤ 46340 * 46340 := Int.mul_le_mul hx.2.2.1 hx.2.2.1 hx.2.1 (by omega)
      exact Int.lt_of_le_of_lt this (by omega)
    obtain ⟨s1, s2, s3⟩ := step x hx m em
    refine bind_eq s1 fun m' e' => ?_
    rw [sections_eq hx.2.1 hx.2.2.1]
    simp only [Res.ok_bind]
    exact bind_eq (blocks x hx s2 m' (s3 m' e')).1 fun _ _ => rfl
  · intro r' e
    obtain ⟨x, ex, e⟩ := Res.bind_eq_ok.1 e
    have hx := q2 x ex
    obtain ⟨m, em, e⟩ := Res.bind_eq_ok.1 e
    obtain ⟨s1, s2, s3⟩ := step x hx m em
    obtain ⟨m', em', e⟩ := Res.bind_eq_ok.1 e
    obtain ⟨y, ey, e⟩ := Res.bind_eq_ok.1 e
    have := (blocks x hx s2 m' (s3 m' em')).2 y ey
    cases e
    exact ⟨this.1, hw.2⟩

/-! ### energies -/

theorem splitItemLoop_len : ∀ (fuel : Nat) (s : Str) (pos : Option Nat) (items v : List Str), (∀ p, pos = some p → p < s.length) →
    splitItemLoop fuel s pos items = .ok v → v.length ≤ items.length + s.length := by
  intro fuel
  induction fuel with
  | zero => intro s pos items v _ e; cases e
  | succ fuel ih =>
    intro s pos items v hp e
    cases pos with
    | none => cases e; omega
    | some pos =>
      have hlt := hp pos rfl
      have next : ∀ (s' : Str) (items' : List Str), s'.length < s.length → items'.length = items.length + 1 →
          splitItemLoop fuel s' (find (lit "-") s') items' = .ok v → v.length ≤ items.length + s.length := by
        intro s' items' h1 h2 e
        have := ih s' _ items' v (fun p hp => ?_) e
        · omega
        · have := find_some_le hp; simp at this; omega
      rw [splitItemLoop] at e
      obtain ⟨tok, -, e⟩ := Res.bind_eq_ok.1 e
      dsimp only at e
      split at e
      · split at e
        · refine next _ _ ?_ (by simp) e
          simp only [List.length_drop]; omega
        · obtain ⟨tok', -, e⟩ := Res.bind_eq_ok.1 e
          refine next _ _ ?_ (by simp) e
          simp only [List.length_drop]; omega
      · refine next _ _ ?_ (by simp) e
        simp only [List.length_drop]; omega

theorem splitItems_len : ∀ (ws : List Str) (inc : Nat) (items v : List Str), (∀ w ∈ ws, w ≠ []) →
    splitItems inc ws items = .ok v → v.length ≤ items.length + (ws.map List.length).sum := by
  intro ws
  induction ws with
  | nil => intro inc items v _ e; cases e; simp
  | cons w ws ih =>
    intro inc items v hne e
    obtain ⟨items', e', e⟩ : ∃ items', (if inc < 4 then Res.ok (items ++ [w]) else match find (lit "-") w with
        | none => Res.ok (items ++ [w])
        | some pos => splitItemLoop (w.length + 1) w (some pos) items) = .ok items' ∧ splitItems (inc + 1) ws items' = .ok v := by
      rw [splitItems] at e
      dsimp only at e
      split at e
      · rename_i hi
        exact ⟨_, by rw [if_pos hi], e⟩
      · rename_i hi
        rw [if_neg hi]
        split at e
        · rename_i hf
          exact ⟨_, by rw [hf], e⟩
        · rename_i pos hf
          rw [hf]
          exact Res.bind_eq_ok.1 e
    have h1 := ih _ _ _ (fun w hw => hne w (by simp [hw])) e
    have hw : 1 ≤ w.length := by
      have := hne w (by simp)
      cases w with
      | nil => exact absurd rfl this
      | cons => simp
    have : items'.length ≤ items.length + w.length := by
      split at e'
      · cases e'; simp; omega
      · split at e'
        · cases e'; simp; omega
        · rename_i pos hpos
          refine splitItemLoop_len _ _ _ _ _ (fun p hp => ?_) e'
          cases hp
          have := find_some_le hpos; simp at this; omega
    rw [List.map_cons, List.sum_cons]
    omega

theorem words_len : ∀ s : Str, ((words s).map List.length).sum ≤ s.length := by
  intro s
  induction s with
  | nil => simp [words]
  | cons c s ih =>
    unfold words
    split
    · simp only [List.length_cons]; omega
    split
    · simp only [List.map_cons, List.sum_cons, List.length_cons, List.length_nil]; omega
    · cases h : words s with
      | nil => simp
      | cons w ws =>
        rw [h] at ih
        simp only [List.map_cons, List.sum_cons, List.length_cons] at ih ⊢
        omega

theorem split_len {l : Str} {v : List Str} (e : splitStEnergies l = .ok v) : v.length ≤ l.length := by
  have hne : ∀ w ∈ splitSt l, w ≠ [] := by
    intro w hw
    unfold splitSt at hw
    have := (List.mem_filter.1 hw).2
    rintro rfl
    simp at this
  have hl := words_len l
  rw [words_eq] at hl
  unfold splitStEnergies at e
  dsimp only at e
  split at e
  · cases e
    refine Nat.le_trans ?_ hl
    generalize splitSt l = ws at hne
    clear hl
    induction ws with
    | nil => simp
    | cons w ws ih =>
      have := ih fun w hw => hne w (by simp [hw])
      have hw : 1 ≤ w.length := by
        have := hne w (by simp)
        cases w with
        | nil => exact absurd rfl this
        | cons => simp
      simp only [List.length_cons, List.map_cons, List.sum_cons]
      omega
  · have := splitItems_len _ _ _ _ hne e
    simp only [List.length_nil, Nat.zero_add] at this
    omega

/-- The number of occupied levels counted so far. -/
def level (orbType : Str) (d : LogData α) : Int := (d.homo.get orbType).getD 0

theorem pushEnergies_same (orbType : Str) (occ : Bool) : ∀ (v : List Str) (d : LogData α), 0 ≤ level orbType d → level orbType d + v.length ≤ 2147483647 →
    pushEnergies orbType occ v d = .ok (Readers.pushEnergies orbType occ v d) ∧
    0 ≤ level orbType (Readers.pushEnergies orbType occ v d) ∧ level orbType (Readers.pushEnergies orbType occ v d) ≤ level orbType d + v.length := by
  intro v
  induction v with
  | nil => intro d h0 _; exact ⟨rfl, h0, by simp [Readers.pushEnergies]⟩
  | cons s v ih =>
    intro d h0 h1
    rw [List.length_cons] at h1
    push_cast at h1
    rw [pushEnergies, Readers.pushEnergies]
    dsimp only
    cases occ with
    | false =>
      simp only [Bool.false_eq_true, if_false, Res.ok_bind]
      have := ih { d with oe := d.oe.set orbType ((d.oe.get orbType).getD [] ++ [Num.atof s]) } h0 (by unfold level at *; dsimp only; omega)
      refine ⟨this.1, this.2.1, ?_⟩
      have := this.2.2
      rw [List.length_cons]
      unfold level at *
      dsimp only at this
      push_cast
      omega
    | true =>
      have hl : level orbType { d with oe := d.oe.set orbType ((d.oe.get orbType).getD [] ++ [Num.atof s]), homo := d.homo.set orbType ((d.homo.get orbType).getD 0 + 1) } =
          level orbType d + 1 := by
        unfold level
        dsimp only
        rw [Map.get_set_self]
        rfl
      have := ih { d with oe := d.oe.set orbType ((d.oe.get orbType).getD [] ++ [Num.atof s]), homo := d.homo.set orbType ((d.homo.get orbType).getD 0 + 1) }
        (by rw [hl]; omega) (by rw [hl]; omega)
      rw [hl] at this
      unfold add
      rw [fit_ok (by unfold level at *; omega) (by unfold level at *; omega)]
      simp only [if_true, Res.ok_bind]
      refine ⟨this.1, this.2.1, ?_⟩
      have := this.2.2
      rw [List.length_cons]
      push_cast
      omega

theorem energiesLoop_same {t : Str} (ht : t.length ≤ 2147483647) (orbType : Str) : ∀ (fuel : Nat) (r : FR (LogData α)) (line : Str), Within' t r →
    0 ≤ level orbType r.data → level orbType r.data + r.fid.text.length ≤ t.length →
    energiesLoop orbType fuel r line = Readers.energiesLoop orbType fuel r line ∧ ∀ r', Readers.energiesLoop orbType fuel r line = .ok r' → Within' t r' := by
  intro fuel
  induction fuel with
  | zero => intro r line _ _ _; exact ⟨rfl, fun r' e => by cases e⟩
  | succ fuel ih =>
    intro r line hw h0 h1
    obtain ⟨g1, -, g3⟩ := hw.1.getline line
    rw [energiesLoop, Readers.energiesLoop]
    cases hg : getline r.fid line with
    | mk l fid =>
      rw [hg] at g1 g3
      dsimp only at g1 g3 ⊢
      split
      · exact ⟨rfl, fun r' e => by cases e; exact ⟨g1, hw.2⟩⟩
      rename_i hf
      have g3 := g3 (by cases h : fid.fail; rfl; exact absurd h hf)
      split
      · have key : ∀ v, splitStEnergies l = .ok v → _ := fun v ev =>
          pushEnergies_same orbType (foundSubStrInStr l ((lit " ") ++ orbType ++ (lit "  occ. eigenvalues -- "))) (v.drop 4) r.data h0
            (by have := split_len ev; rw [List.length_drop]; omega)
        have next := fun v (ev : splitStEnergies l = .ok v) => ih ⟨(tellg fid).2, (tellg fid).1,
            Readers.pushEnergies orbType (foundSubStrInStr l ((lit " ") ++ orbType ++ (lit "  occ. eigenvalues -- "))) (v.drop 4) r.data⟩ l ⟨g1.tellg, g1.tellg_pos⟩ (key v ev).2.1 (by
              have h2 := (key v ev).2.2
              have := split_len ev
              rw [List.length_drop] at h2
              have : (tellg fid).2.text = fid.text := by unfold tellg; split <;> rfl
              dsimp only
              rw [this]
              omega)
        constructor
        · refine bind_eq rfl fun v ev => ?_
          rw [(key v ev).1]
          simp only [Res.ok_bind]
          exact (next v ev).1
        · intro r' e
          obtain ⟨v, ev, e⟩ := Res.bind_eq_ok.1 e
          exact (next v ev).2 r' e
      · exact ⟨rfl, fun r' e => by cases e; exact ⟨g1, hw.2⟩⟩

theorem readOrbEnergies_same {t : Str} (ht : t.length ≤ 2147483647) (orbType : Str) (fuel : Nat) (r : FR (LogData α)) (hw : Within' t r) :
    readOrbEnergies orbType fuel r = Readers.readOrbEnergies orbType fuel r ∧ ∀ r', Readers.readOrbEnergies orbType fuel r = .ok r' → Within' t r' := by
  have hl : level orbType { r.data with homo := r.data.homo.set orbType 0, oe := r.data.oe.set orbType [] } = 0 := by
    unfold level
    dsimp only
    rw [Map.get_set_self]
    rfl
  obtain ⟨q1, q2⟩ := energiesLoop_same ht orbType fuel { r with data := { r.data with homo := r.data.homo.set orbType 0, oe := r.data.oe.set orbType [] } } [] (by exact hw)
    (by dsimp only; rw [hl]) (by dsimp only; rw [hl]; have := hw.1.len; omega)
  constructor
  · exact bind_eq q1 fun _ _ => rfl
  · intro r' e
    obtain ⟨x, ex, e⟩ := Res.bind_eq_ok.1 e
    have hx := q2 x ex
    cases e
    exact ⟨hx.1.seekg hx.2, hx.2⟩

omit [Mul α] [Zero α] in
theorem coordReader_inside {t : Str} (fuel : Nat) (r r' : FR (LogData α)) (hw : Within' t r) (e : coordReader fuel r = .ok r') : Within' t r' := by
  have loop : ∀ (fuel : Nat) (fid : Readers.Stream) (line : Str) (X Y Z : List α), Inside t fid → ∀ x, coordLoop fuel fid line X Y Z = .ok x → Inside t x.1 := by
    intro fuel
    induction fuel with
    | zero => intro fid line X Y Z _ x e; cases e
    | succ fuel ih =>
      intro fid line X Y Z hi x e
      rw [coordLoop] at e
      split at e
      · cases e; exact hi
      obtain ⟨_, -, e⟩ := Res.bind_eq_ok.1 e
      obtain ⟨_, -, e⟩ := Res.bind_eq_ok.1 e
      obtain ⟨_, -, e⟩ := Res.bind_eq_ok.1 e
      obtain ⟨_, -, e⟩ := Res.bind_eq_ok.1 e
      obtain ⟨_, -, e⟩ := Res.bind_eq_ok.1 e
      obtain ⟨_, -, e⟩ := Res.bind_eq_ok.1 e
      exact ih _ _ _ _ _ (hi.getline line).1 x e
  unfold coordReader at e
  dsimp only at e
  obtain ⟨x, ex, e⟩ := Res.bind_eq_ok.1 e
  have := loop _ _ _ _ _ _ (((hw.1.getline _).1.getline _).1.getline _).1 x ex
  cases e
  exact ⟨this, hw.2⟩

theorem log_same {t : Str} (h : ModestLog t) (tag : Str) :
    ((logSections (α := α)).readers.get tag = none ∧ (Readers.logSections (α := α)).readers.get tag = none) ∨
    ∃ f g, (logSections (α := α)).readers.get tag = some f ∧ (Readers.logSections (α := α)).readers.get tag = some g ∧ SameReaders t 2147483647 f g := by
  have sz : t.length ≤ 2147483647 := by have := h.size; omega
  have energies : ∀ o : Str, SameReaders (σ := LogData α) t 2147483647 (fun fuel r => readOrbEnergies o fuel { r with fid := seekg r.fid r.pos })
      (fun fuel r => Readers.readOrbEnergies o fuel { r with fid := seekg r.fid r.pos }) :=
    fun o fuel _ r hw => readOrbEnergies_same sz o fuel _ ⟨hw.1.seekg hw.2, hw.2⟩
  unfold logSections Readers.logSections
  simp only [Map.get]
  split
  · exact .inr ⟨_, _, rfl, rfl, aoReader_same t⟩
  split
  · exact .inr ⟨_, _, rfl, rfl, fun fuel _ r hw => ⟨rfl, fun r' e => coordReader_inside fuel r r' hw e⟩⟩
  split
  · exact .inr ⟨_, _, rfl, rfl, energies _⟩
  split
  · exact .inr ⟨_, _, rfl, rfl, energies _⟩
  split
  · exact .inr ⟨_, _, rfl, rfl, overlapReader_same h _⟩
  · exact .inl ⟨rfl, rfl⟩

/-! ### the pun file -/

omit [Zero α] in
theorem gausLoop_same (line : Str) (hl : line.length ≤ 2147483000) : ∀ (fuel indent : Nat) (values : List α), indent ≤ line.length →
    gausLoop line fuel indent values = Readers.gausLoop line fuel indent values := by
  intro fuel
  induction fuel with
  | zero => intros; rfl
  | succ fuel ih =>
    intro indent values hi
    rw [gausLoop, Readers.gausLoop]
    split
    · rename_i h
      have h15 : indent + 15 ≤ line.length := by
        unfold toSize at h
        omega
      unfold add
      rw [fit_ok (by omega) (by omega), fit_ok (by omega) (by omega), fit_ok (by omega) (by omega)]
      simp only [Res.ok_bind]
      rw [show ((0 : Int) + indent).toNat = 0 + indent by omega, show ((12 : Int) + indent).toNat = 12 + indent by omega]
      refine bind_eq rfl fun _ _ => bind_eq rfl fun _ _ => bind_eq rfl fun _ _ => bind_eq rfl fun _ _ => ?_
      exact ih (indent + 15) _ h15
    · rfl

omit [Zero α] in
theorem readGausCoefLine_same (line : Str) (hl : line.length ≤ 2147483000) : (readGausCoefLine line : Res (List α)) = Readers.readGausCoefLine line :=
  gausLoop_same line hl _ 0 [] (by omega)

omit [Zero α] in
theorem rowLoop_same {t : Str} (ht : t.length ≤ 2147483000) (b : Bool) (count : Nat) : ∀ (fuel : Nat) (fid : Readers.Stream) (line : Str) (row : List α),
    Inside t fid → LineOf t line → rowLoop b count fuel fid line row = Readers.rowLoop b count fuel fid line row ∧
    ∀ x, Readers.rowLoop b count fuel fid line row = .ok x → Inside t x.1 := by
  intro fuel
  induction fuel with
  | zero => intro fid line row _ _; exact ⟨rfl, fun x e => by cases e⟩
  | succ fuel ih =>
    intro fid line row hi hl
    rw [rowLoop, Readers.rowLoop]
    split
    · exact ⟨rfl, fun x e => by cases e; exact hi⟩
    split
    · exact ⟨rfl, fun x e => by cases e; exact hi⟩
    rw [readGausCoefLine_same line (Nat.le_trans hl.len ht)]
    dsimp only
    constructor
    · exact bind_eq rfl fun coef _ => (ih _ _ _ (hi.getline line).1 (hl.next hi)).1
    · intro x e
      obtain ⟨coef, -, e⟩ := Res.bind_eq_ok.1 e
      exact (ih _ _ _ (hi.getline line).1 (hl.next hi)).2 x e

omit [Zero α] in
theorem coefLoop_same {t : Str} (ht : t.length ≤ 2147483000) (orbType : Str) : ∀ (fuel : Nat) (b : Bool) (count : Nat) (fid : Readers.Stream) (v : List (List α)),
    Inside t fid → coefLoop orbType fuel b count fid v = Readers.coefLoop orbType fuel b count fid v ∧
    ∀ x, Readers.coefLoop orbType fuel b count fid v = .ok x → Inside t x.1 := by
  intro fuel
  induction fuel with
  | zero => intro b count fid v _; exact ⟨rfl, fun x e => by cases e⟩
  | succ fuel ih =>
    intro b count fid v hi
    obtain ⟨q1, q2⟩ := rowLoop_same (α := α) ht b count fuel (getline fid []).2 (getline fid []).1 [] (hi.getline []).1 (LineOf.next hi (.inr rfl))
    rw [coefLoop, Readers.coefLoop]
    dsimp only
    constructor
    · refine bind_eq q1 fun x e => ?_
      split
      · rfl
      · exact (ih _ _ _ _ (q2 x e)).1
    · intro y e
      obtain ⟨x, ex, e⟩ := Res.bind_eq_ok.1 e
      split at e
      · cases e; exact q2 x ex
      · exact (ih _ _ _ _ (q2 x ex)).2 y e

omit [Zero α] in
/-- What the loop has read is a table. -/
theorem coefLoop_tableAt {t : Str} (hfit : AllFit t) (spin : Log.Spin) {fuel : Nat} {fid : Readers.Stream} (hi : Inside t fid) {x : Readers.Stream × List (List α)}
    (e : Readers.coefLoop spin.name fuel false 0 fid [] = .ok x) : ∃ i e, Pun.TableAt t spin none i x.2 e := by
  obtain ⟨i, hat⟩ := hi.at
  have mono : ∀ N, fuel ≤ N → Readers.coefLoop spin.name N false 0 fid [] = .ok x := by
    intro N hN
    have := coefLoop_mono spin.name fuel N hN false 0 fid ([] : List (List α)) (by rw [e]; simp)
    rw [this, e]
  rcases table_trichotomy (α := α) t spin _ i none (Nat.le_refl _) with ⟨k, rows, -, h⟩ | ⟨k, h⟩ | h
  · obtain ⟨N, hN⟩ := coefLoop_table hfit h
    obtain ⟨fid', -, h2⟩ := hN [] fid hat
    have h3 := h2 (max N fuel) (by omega)
    have h4 := mono (max N fuel) (by omega)
    simp only [Option.isSome_none, Option.getD_none, List.nil_append] at h3
    rw [h4] at h3
    cases h3
    exact ⟨i, k, h⟩
  · obtain ⟨N, hN⟩ := coefLoop_bad hfit h
    have h3 := hN [] fid hat (max N fuel) (by omega)
    have h4 := mono (max N fuel) (by omega)
    simp only [Option.isSome_none, Option.getD_none] at h3
    rw [h4] at h3
    cases h3
  · have h3 := coefLoop_endless hfit h [] fid hat fuel
    simp only [Option.isSome_none, Option.getD_none] at h3
    rw [e] at h3
    cases h3

omit [Zero α] in
theorem readCoef_same {t : Str} (h : ModestPun α t) (spin : Log.Spin) (N : Nat) : SameReaders t N (readCoef (α := α) spin.name) (Readers.readCoef spin.name) := by
  intro fuel _ r hw
  have hs := h.size
  obtain ⟨q1, q2⟩ := coefLoop_same (α := α) (t := t) (by omega) spin.name fuel false 0 r.fid [] hw.1
  have hfit : AllFit t := allFit_of (by unfold Fits; omega)
  unfold readCoef Readers.readCoef
  constructor
  · refine bind_eq q1 fun x e => ?_
    obtain ⟨i, k, ht⟩ := coefLoop_tableAt hfit spin hw.1 e
    obtain ⟨t1, t2⟩ := h.tables spin i k x.2 ht
    dsimp only
    refine bind_eq (ofVecVec_eq (by omega) (fun v hv => by have := t2 v hv; omega) fun v hv => ?_) fun _ _ => rfl
    have := t2 v hv
    have : (x.2.length : Int) * v.length ≤ 46340 * 46340 := Int.mul_le_mul (by omega) (by omega) (by omega) (by omega)
    omega
  · intro r' e
    obtain ⟨x, ex, e⟩ := Res.bind_eq_ok.1 e
    obtain ⟨m, em, e⟩ := Res.bind_eq_ok.1 e
    cases e
    exact ⟨q2 x ex, hw.2⟩

omit [Zero α] in
theorem pun_same {t : Str} (h : ModestPun α t) (N : Nat) (tag : Str) :
    ((punSections (α := α)).readers.get tag = none ∧ (Readers.punSections (α := α)).readers.get tag = none) ∨
    ∃ f g, (punSections (α := α)).readers.get tag = some f ∧ (Readers.punSections (α := α)).readers.get tag = some g ∧ SameReaders t N f g := by
  unfold punSections Readers.punSections
  simp only [Map.get]
  split
  · exact .inr ⟨_, _, rfl, rfl, readCoef_same h .alpha N⟩
  split
  · exact .inr ⟨_, _, rfl, rfl, readCoef_same h .beta N⟩
  · exact .inl ⟨rfl, rfl⟩

end Verif.Ints
