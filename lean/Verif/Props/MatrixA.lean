import Verif.MatrixBridge
/-
Properties C01-C06, C08, C09: element store, constructors, resize, assignment, copies, transposition.
-/
namespace Verif.Mat
variable {α : Type}

/-- Example matrix used for the non-vacuity checks: 2 x 3 x 1. -/
def ex23 : Mat Int := ⟨2, 3, 1, [some 1, some 2, some 3, some 4, some 5, some 6]⟩
/-- Example matrix: 2 x 2 x 2. -/
def ex222 : Mat Int := ⟨2, 2, 2, [some 1, some 2, some 3, some 4, some 5, some 6, some 7, some 8]⟩

example : WF ex23 := by decide
example : WF ex222 := by decide

/-! ### C01 -/

/-- C01: a successful `set_elem(v,r,c,s)` keeps dimensions and well-formedness, makes `get_elem(r,c,s)` return `v`
and changes no other element. -/
theorem C01_set_get {m m' : Mat α} (h : WF m) (v : α) (r c s : Int) (hset : m.setElem3 v r c s = .ok m') :
    WF m' ∧ m'.rows = m.rows ∧ m'.cols = m.cols ∧ m'.shel = m.shel ∧
    m'.getElem3 r c s = .ok v ∧
    ∀ i j k, (i, j, k) ≠ (r, c, s) → m'.getElem3 i j k = m.getElem3 i j k := by
  obtain ⟨f, hf⟩ := h.exists_isMat
  by_cases hi : InR m.rows m.cols m.shel r c s
  · obtain ⟨m1, e1, h1⟩ := hf.set3 hi v
    rw [hset] at e1; cases e1
    refine ⟨h1.wf h.rows1 h.cols1 h.shel1, h1.rows, h1.cols, h1.shel, ?_, ?_⟩
    · rw [h1.get3 hi]; simp [upd]
    · intro i j k hne
      rw [h1.get3_eq, hf.get3_eq]
      congr 2
      unfold upd
      rw [if_neg]; rintro ⟨rfl, rfl, rfl⟩; exact hne rfl
  · rw [set3_exit v hi] at hset; cases hset

/-- C01, two-coordinate form: `set_elem(v,r,c)` writes shelf 1. -/
theorem C01_set_get_2 {m m' : Mat α} (h : WF m) (v : α) (r c : Int) (hset : m.setElem2 v r c = .ok m') :
    m.setElem3 v r c 1 = .ok m' := by
  obtain ⟨f, hf⟩ := h.exists_isMat
  have hs := h.shel1
  by_cases hi : 1 ≤ r ∧ r ≤ m.rows ∧ 1 ≤ c ∧ c ≤ m.cols
  · obtain ⟨i1, i2, i3, i4⟩ := hi
    obtain ⟨m1, e1, h1⟩ := hf.set2 hs i1 i2 i3 i4 v
    obtain ⟨m2, e2, h2⟩ := hf.set3 (i := r) (j := c) (k := 1) ⟨i1, i2, i3, i4, by omega, hs⟩ v
    rw [hset] at e1; cases e1
    rw [e2, h1.ext h2]
  · rw [set2_exit v hi] at hset; cases hset

/-- C01, one-coordinate form: `set_elem(v,r)` writes column 1 of shelf 1. -/
theorem C01_set_get_1 {m m' : Mat α} (h : WF m) (v : α) (r : Int) (hset : m.setElem1 v r = .ok m') :
    m.setElem3 v r 1 1 = .ok m' := by
  obtain ⟨f, hf⟩ := h.exists_isMat
  have hs := h.shel1
  have hc := h.cols1
  by_cases hi : 1 ≤ r ∧ r ≤ m.rows
  · obtain ⟨i1, i2⟩ := hi
    obtain ⟨m1, e1, h1⟩ := hf.set1 hc hs i1 i2 v
    obtain ⟨m2, e2, h2⟩ := hf.set3 (i := r) (j := 1) (k := 1) ⟨i1, i2, by omega, by omega, by omega, hs⟩ v
    rw [hset] at e1; cases e1
    rw [e2, h1.ext h2]
  · rw [set1_exit v hi] at hset; cases hset

/-- The shorter reads agree with the three-coordinate read. -/
theorem C01_reads_agree {m : Mat α} (h : WF m) (r c : Int) :
    m.getElem2 r c = m.getElem3 r c 1 ∧ m.getElem1 r = m.getElem3 r 1 1 ∧ m.getElem0 = m.getElem3 1 1 1 := by
  obtain ⟨f, hf⟩ := h.exists_isMat
  have hs := h.shel1
  have hc := h.cols1
  have hr := h.rows1
  refine ⟨?_, ?_, ?_⟩
  · rw [hf.get2_eq hs, hf.get3_eq]
    congr 1; unfold InR; apply propext; omega
  · rw [hf.get1_eq hc hs, hf.get3_eq]
    congr 1; unfold InR; apply propext; omega
  · rw [hf.get3 ⟨by omega, hr, by omega, hc, by omega, hs⟩]
    exact hf.buf.read (i := 1) (j := 1) (k := 1) ⟨by omega, hr, by omega, hc, by omega, hs⟩ rfl (by simp [idx])

example : ∃ m', ex222.setElem3 9 2 1 2 = .ok m' := ⟨_, rfl⟩
example : ∃ m', ex23.setElem2 9 2 1 = .ok m' := ⟨_, rfl⟩

/-! ### C02 -/

private theorem ite_exit {P : Prop} [Decidable P] {v : α} :
    ((if P then Res.ok v else .exit 1) = .exit 1) ↔ ¬ P := by split <;> simp [*]

private theorem ite_ok {P : Prop} [Decidable P] {v : α} :
    (∃ w, (if P then Res.ok v else .exit 1) = .ok w) ↔ P := by split <;> simp [*]

/-- C02 (reads): `exit(1)` exactly for out-of-range coordinates, a value otherwise; never undefined behaviour. -/
theorem C02_get {m : Mat α} (h : WF m) (r c s : Int) :
    (m.getElem3 r c s = .exit 1 ↔ ¬ (1 ≤ r ∧ r ≤ m.rows ∧ 1 ≤ c ∧ c ≤ m.cols ∧ 1 ≤ s ∧ s ≤ m.shel)) ∧
    ((∃ v, m.getElem3 r c s = .ok v) ↔ (1 ≤ r ∧ r ≤ m.rows ∧ 1 ≤ c ∧ c ≤ m.cols ∧ 1 ≤ s ∧ s ≤ m.shel)) ∧
    (m.getElem2 r c = .exit 1 ↔ ¬ (1 ≤ r ∧ r ≤ m.rows ∧ 1 ≤ c ∧ c ≤ m.cols)) ∧
    ((∃ v, m.getElem2 r c = .ok v) ↔ (1 ≤ r ∧ r ≤ m.rows ∧ 1 ≤ c ∧ c ≤ m.cols)) ∧
    (m.getElem1 r = .exit 1 ↔ ¬ (1 ≤ r ∧ r ≤ m.rows)) ∧
    ((∃ v, m.getElem1 r = .ok v) ↔ (1 ≤ r ∧ r ≤ m.rows)) := by
  obtain ⟨f, hf⟩ := h.exists_isMat
  have hs := h.shel1
  have hc := h.cols1
  rw [hf.get3_eq, hf.get2_eq hs, hf.get1_eq hc hs]
  exact ⟨ite_exit, ite_ok, ite_exit, ite_ok, ite_exit, ite_ok⟩

/-- C02 (writes): `exit(1)` exactly for out-of-range coordinates, success otherwise. -/
theorem C02_set {m : Mat α} (h : WF m) (v : α) (r c s : Int) :
    (m.setElem3 v r c s = .exit 1 ↔ ¬ (1 ≤ r ∧ r ≤ m.rows ∧ 1 ≤ c ∧ c ≤ m.cols ∧ 1 ≤ s ∧ s ≤ m.shel)) ∧
    ((∃ m', m.setElem3 v r c s = .ok m') ↔ (1 ≤ r ∧ r ≤ m.rows ∧ 1 ≤ c ∧ c ≤ m.cols ∧ 1 ≤ s ∧ s ≤ m.shel)) ∧
    (m.setElem2 v r c = .exit 1 ↔ ¬ (1 ≤ r ∧ r ≤ m.rows ∧ 1 ≤ c ∧ c ≤ m.cols)) ∧
    ((∃ m', m.setElem2 v r c = .ok m') ↔ (1 ≤ r ∧ r ≤ m.rows ∧ 1 ≤ c ∧ c ≤ m.cols)) ∧
    (m.setElem1 v r = .exit 1 ↔ ¬ (1 ≤ r ∧ r ≤ m.rows)) ∧
    ((∃ m', m.setElem1 v r = .ok m') ↔ (1 ≤ r ∧ r ≤ m.rows)) := by
  obtain ⟨f, hf⟩ := h.exists_isMat
  have hs := h.shel1
  have hc := h.cols1
  have h3 : (∃ m', m.setElem3 v r c s = .ok m' ∧ InR m.rows m.cols m.shel r c s) ∨
      (m.setElem3 v r c s = .exit 1 ∧ ¬ InR m.rows m.cols m.shel r c s) := by
    by_cases hi : InR m.rows m.cols m.shel r c s
    · obtain ⟨m', e, _⟩ := hf.set3 hi v; exact Or.inl ⟨m', e, hi⟩
    · exact Or.inr ⟨set3_exit v hi, hi⟩
  have h2 : (∃ m', m.setElem2 v r c = .ok m' ∧ (1 ≤ r ∧ r ≤ m.rows ∧ 1 ≤ c ∧ c ≤ m.cols)) ∨
      (m.setElem2 v r c = .exit 1 ∧ ¬ (1 ≤ r ∧ r ≤ m.rows ∧ 1 ≤ c ∧ c ≤ m.cols)) := by
    by_cases hi : 1 ≤ r ∧ r ≤ m.rows ∧ 1 ≤ c ∧ c ≤ m.cols
    · obtain ⟨m', e, _⟩ := hf.set2 hs hi.1 hi.2.1 hi.2.2.1 hi.2.2.2 v; exact Or.inl ⟨m', e, hi⟩
    · exact Or.inr ⟨set2_exit v hi, hi⟩
  have h1 : (∃ m', m.setElem1 v r = .ok m' ∧ (1 ≤ r ∧ r ≤ m.rows)) ∨
      (m.setElem1 v r = .exit 1 ∧ ¬ (1 ≤ r ∧ r ≤ m.rows)) := by
    by_cases hi : 1 ≤ r ∧ r ≤ m.rows
    · obtain ⟨m', e, _⟩ := hf.set1 hc hs hi.1 hi.2 v; exact Or.inl ⟨m', e, hi⟩
    · exact Or.inr ⟨set1_exit v hi, hi⟩
  unfold InR at h3
  refine ⟨?_, ?_, ?_, ?_, ?_, ?_⟩
  · rcases h3 with ⟨_, e, hi⟩ | ⟨e, hi⟩ <;> simp [e, hi]
  · rcases h3 with ⟨_, e, hi⟩ | ⟨e, hi⟩ <;> simp [e, hi]
  · rcases h2 with ⟨_, e, hi⟩ | ⟨e, hi⟩ <;> simp [e, hi]
  · rcases h2 with ⟨_, e, hi⟩ | ⟨e, hi⟩ <;> simp [e, hi]
  · rcases h1 with ⟨_, e, hi⟩ | ⟨e, hi⟩ <;> simp [e, hi]
  · rcases h1 with ⟨_, e, hi⟩ | ⟨e, hi⟩ <;> simp [e, hi]

/-- Boundary of C02: on a degenerate matrix (`Matrix({{}})` is 1 x 0) the one-coordinate read passes its check and
reads outside the (empty) buffer. -/
theorem C02_degenerate_ub : ∃ m : Mat Int, ofVecVec [[]] = .ok m ∧ m.getElem1 1 = .ub := ⟨⟨1, 0, 1, []⟩, by decide, by decide⟩

example : ex23.getElem2 0 1 = .exit 1 ∧ ex23.getElem2 2 3 = .ok 6 ∧ ex23.getElem2 2 4 = .exit 1 := by decide

/-! ### C03 -/

/-- A write through the API. -/
inductive Write (α : Type) where
  | set1 (v : α) (r : Int)
  | set2 (v : α) (r c : Int)
  | set3 (v : α) (r c s : Int)

/-- Performing a write. -/
def Write.run (m : Mat α) : Write α → Res (Mat α)
  | .set1 v r => m.setElem1 v r
  | .set2 v r c => m.setElem2 v r c
  | .set3 v r c s => m.setElem3 v r c s

/-- Coordinate addressed by a write. -/
def Write.target : Write α → Int × Int × Int
  | .set1 _ r => (r, 1, 1)
  | .set2 _ r c => (r, c, 1)
  | .set3 _ r c s => (r, c, s)

def Write.value : Write α → α
  | .set1 v _ => v
  | .set2 v _ _ => v
  | .set3 v _ _ _ => v

/-- The abstract store: a total map from coordinates to values, initially 0, overwritten by each write. -/
def abstractStore [Zero α] (ws : List (Write α)) : Int × Int × Int → α :=
  ws.foldl (fun st w => fun p => if p = w.target then w.value else st p) (fun _ => 0)

theorem Write.run_isMat {m m' : Mat α} {r c s f} (h : IsMat m r c s f) (hc : 1 ≤ c) (hs : 1 ≤ s) (w : Write α)
    (e : w.run m = .ok m') :
    IsMat m' r c s (fun i j k => if (i, j, k) = w.target then w.value else f i j k) := by
  have hwf : ∀ {p q t : Int} {v : α}, upd f p q t v = (fun i j k => if (i, j, k) = (p, q, t) then v else f i j k) := by
    intro p q t v; funext i j k; unfold upd; simp only [Prod.mk.injEq]
  cases w with
  | set1 v a =>
    simp only [Write.run, Write.target, Write.value] at *
    by_cases hi : 1 ≤ a ∧ a ≤ r
    · obtain ⟨m1, e1, h1⟩ := h.set1 hc hs hi.1 hi.2 v
      rw [e] at e1; cases e1; rw [hwf] at h1; exact h1
    · rw [set1_exit v (by rw [h.rows]; exact hi)] at e; cases e
  | set2 v a b =>
    simp only [Write.run, Write.target, Write.value] at *
    by_cases hi : 1 ≤ a ∧ a ≤ r ∧ 1 ≤ b ∧ b ≤ c
    · obtain ⟨m1, e1, h1⟩ := h.set2 hs hi.1 hi.2.1 hi.2.2.1 hi.2.2.2 v
      rw [e] at e1; cases e1; rw [hwf] at h1; exact h1
    · rw [set2_exit v (by rw [h.rows, h.cols]; exact hi)] at e; cases e
  | set3 v a b d =>
    simp only [Write.run, Write.target, Write.value] at *
    by_cases hi : InR r c s a b d
    · obtain ⟨m1, e1, h1⟩ := h.set3 hi v
      rw [e] at e1; cases e1; rw [hwf] at h1; exact h1
    · rw [set3_exit v (by rw [h.rows, h.cols, h.shel]; exact hi)] at e; cases e

/-- C03: a fresh matrix after any accepted history of writes reads like the abstract store. -/
theorem C03_history [Zero α] {r c s : Int} {m0 m : Mat α} (h0 : mk3 r c s = .ok m0) (ws : List (Write α))
    (hrun : ws.foldlM Write.run m0 = .ok m) :
    m.rows = r ∧ m.cols = c ∧ m.shel = s ∧
    ∀ i j k, 1 ≤ i ∧ i ≤ r → 1 ≤ j ∧ j ≤ c → 1 ≤ k ∧ k ≤ s → m.getElem3 i j k = .ok (abstractStore ws (i, j, k)) := by
  have hpos : 1 ≤ r ∧ 1 ≤ c ∧ 1 ≤ s := by
    false_or_by_contra
    rename_i hh
    have : (mk3 r c s : Res (Mat α)) = .exit 1 := by
      unfold mk3
      repeat' split
      all_goals first | rfl | omega
    rw [this] at h0; cases h0
  obtain ⟨m0', e0, hm0⟩ := mk3_isMat (α := α) hpos.1 hpos.2.1 hpos.2.2
  rw [h0] at e0; cases e0
  have key : ∀ (ws : List (Write α)) (m0 : Mat α) (st : Int × Int × Int → α),
      IsMat m0 r c s (fun i j k => st (i, j, k)) → ws.foldlM Write.run m0 = .ok m →
      IsMat m r c s (fun i j k => ws.foldl (fun st w => fun p => if p = w.target then w.value else st p) st (i, j, k)) := by
    intro ws
    induction ws with
    | nil => intro m0 st h e; cases e; exact h
    | cons w ws ih =>
      intro m0 st h e
      rw [List.foldlM_cons] at e
      obtain ⟨m1, e1, e2⟩ := Res.bind_eq_ok.1 e
      have h1 := Write.run_isMat h hpos.2.1 hpos.2.2 w e1
      exact ih m1 (fun p => if p = w.target then w.value else st p) h1 e2
  have := key ws m0 (fun _ => 0) hm0 hrun
  refine ⟨this.rows, this.cols, this.shel, ?_⟩
  intro i j k hi hj hk
  exact this.get3 ⟨hi.1, hi.2, hj.1, hj.2, hk.1, hk.2⟩

example : ∃ m0 m : Mat Int, mk3 2 2 1 = .ok m0 ∧
    [Write.set3 5 1 2 1, .set2 7 2 2, .set1 3 1, .set3 6 1 2 1].foldlM Write.run m0 = .ok m ∧
    m.elem = [some 3, some 6, some 0, some 7] := ⟨_, _, rfl, rfl, rfl⟩

/-! ### C04 -/

/-- C04: `Matrix(r,c,s)`. -/
theorem C04_mk3 [Zero α] (r c s : Int) :
    ((r < 1 ∨ c < 1 ∨ s < 1) → (mk3 r c s : Res (Mat α)) = .exit 1) ∧
    (1 ≤ r → 1 ≤ c → 1 ≤ s → ∃ m : Mat α, mk3 r c s = .ok m ∧ WF m ∧ m.rows = r ∧ m.cols = c ∧ m.shel = s ∧
      ∀ i j k, 1 ≤ i ∧ i ≤ r → 1 ≤ j ∧ j ≤ c → 1 ≤ k ∧ k ≤ s → m.getElem3 i j k = .ok 0) := by
  constructor
  · intro h
    unfold mk3
    repeat' split
    all_goals first | rfl | omega
  · intro h1 h2 h3
    obtain ⟨m, e, hm⟩ := mk3_isMat (α := α) h1 h2 h3
    exact ⟨m, e, hm.wf h1 h2 h3, hm.rows, hm.cols, hm.shel,
      fun i j k a b c => hm.get3 ⟨a.1, a.2, b.1, b.2, c.1, c.2⟩⟩

/-- C04: `Matrix(r,c)`. -/
theorem C04_mk2 [Zero α] (r c : Int) :
    ((r < 1 ∨ c < 1) → (mk2 r c : Res (Mat α)) = .exit 1) ∧
    (1 ≤ r → 1 ≤ c → ∃ m : Mat α, mk2 r c = .ok m ∧ WF m ∧ m.rows = r ∧ m.cols = c ∧ m.shel = 1 ∧
      ∀ i j, 1 ≤ i ∧ i ≤ r → 1 ≤ j ∧ j ≤ c → m.getElem2 i j = .ok 0) := by
  constructor
  · intro h
    unfold mk2
    repeat' split
    all_goals first | rfl | omega
  · intro h1 h2
    obtain ⟨m, e, hm⟩ := mk2_isMat (α := α) h1 h2
    exact ⟨m, e, hm.wf h1 h2 (by omega), hm.rows, hm.cols, hm.shel,
      fun i j a b => hm.get2 (by omega) a.1 a.2 b.1 b.2⟩

/-- C04: `Matrix(n)`. -/
theorem C04_mk1 [Zero α] (n : Int) :
    (n < 0 → (mk1 n : Res (Mat α)) = .exit 1) ∧
    ((mk1 0 : Res (Mat α)) = .ok ⟨0, 0, 0, []⟩) ∧
    (1 ≤ n → ∃ m : Mat α, mk1 n = .ok m ∧ WF m ∧ m.rows = n ∧ m.cols = 1 ∧ m.shel = 1 ∧
      ∀ i, 1 ≤ i ∧ i ≤ n → m.getElem1 i = .ok 0) := by
  refine ⟨?_, rfl, ?_⟩
  · intro h
    unfold mk1
    rw [if_pos h]
  · intro h1
    obtain ⟨m, e, hm⟩ := mk1_isMat (α := α) h1
    exact ⟨m, e, hm.wf h1 (by omega) (by omega), hm.rows, hm.cols, hm.shel,
      fun i a => hm.get1 (by omega) (by omega) a.1 a.2⟩

/-- C04: `Matrix()` is the 1 x 1 zero matrix. -/
theorem C04_default [Zero α] : ∃ m : Mat α, default = .ok m ∧ WF m ∧ m.rows = 1 ∧ m.cols = 1 ∧ m.shel = 1 ∧
    m.getElem0 = .ok 0 := by
  obtain ⟨m, e, hm⟩ := default_isMat (α := α)
  have hw := hm.wf (by omega) (by omega) (by omega)
  refine ⟨m, e, hw, hm.rows, hm.cols, hm.shel, ?_⟩
  rw [(C01_reads_agree hw 1 1).2.2]; exact hm.get3 ⟨by omega, by omega, by omega, by omega, by omega, by omega⟩

/-- C04: `Matrix(vector<double>)` is the column holding the vector (entry `t`, 0-based, is row `t+1`). -/
theorem C04_ofVec (v : List α) :
    ∃ m : Mat α, ofVec v = .ok m ∧ Init m ∧ m.rows = v.length ∧ m.cols = 1 ∧ m.shel = 1 ∧
      ∀ (t : Nat) (h : t < v.length), m.getElem1 (t + 1) = .ok v[t] ∧ m.getElem2 (t + 1) 1 = .ok v[t] := by
  cases v with
  | nil =>
    exact ⟨⟨0, 1, 1, []⟩, rfl, ⟨by simp, by simp, by simp, by simp, by simp⟩, rfl, rfl, rfl, by intro t h; simp at h⟩
  | cons a as =>
    have : Inhabited α := ⟨a⟩
    obtain ⟨m, e, hm⟩ := ofVec_isMat (a :: as)
    refine ⟨m, e, hm.init, hm.rows, hm.cols, hm.shel, ?_⟩
    intro t ht
    have e1 : ((t : Int) + 1 - 1).toNat = t := by omega
    rw [hm.get1 (by omega) (by omega) (by omega) (by omega), hm.get2 (by omega) (by omega) (by omega) (by omega) (by omega),
      e1, getElem!_pos (a :: as) t ht]
    exact ⟨rfl, rfl⟩

/-- C04: `Matrix(vector<int>)` converts and stores the vector as a column. -/
theorem C04_ofIntVec (cast : Int → α) (v : List Int) : ofIntVec cast v = ofVec (v.map cast) := by
  simp [ofIntVec, ofVec]

/-- C04: `Matrix(vector<vector<double>>)`: rectangular data is stored, an empty outer vector throws `out_of_range`,
ragged data throws `invalid_argument`. -/
theorem C04_ofVecVec (vv : List (List α)) :
    (vv = [] → ofVecVec vv = .throw .outOfRange) ∧
    (∀ v0, vv.head? = some v0 → (∃ v ∈ vv, v.length ≠ v0.length) → ofVecVec vv = .throw .invalidArgument) ∧
    (∀ v0, vv.head? = some v0 → (∀ v ∈ vv, v.length = v0.length) →
      ∃ m : Mat α, ofVecVec vv = .ok m ∧ Init m ∧ m.rows = vv.length ∧ m.cols = v0.length ∧ m.shel = 1 ∧
        ∀ (t : Nat) (h : t < vv.length) (u : Nat) (h' : u < vv[t].length),
          m.getElem2 (t + 1) (u + 1) = .ok vv[t][u]) := by
  refine ⟨?_, ?_, ?_⟩
  · rintro rfl; rfl
  · intro v0 h0 hr
    cases vv with
    | nil => simp at h0
    | cons w ws =>
      simp only [List.head?_cons, Option.some.injEq] at h0; subst h0
      have e1 : vecAt (w :: ws) 0 = .ok w := rfl
      unfold ofVecVec
      simp only [e1, Res.ok_bind]
      rw [ofVecVecLoop_ragged (w :: ws) _ ((w :: ws).length) 1 w.length (fun _ _ _ => none)
        (by simpa using BufIs.alloc (α := α) (r := (w :: ws).length) (c := w.length) (s := 1) (by omega) (by omega) (by omega))
        (by omega) (by omega) (by obtain ⟨v, hv, hne⟩ := hr; exact ⟨v, hv, by omega⟩)]
      rfl
  · intro v0 h0 hr
    cases vv with
    | nil => simp at h0
    | cons w ws =>
      simp only [List.head?_cons, Option.some.injEq] at h0; subst h0
      have e1 : vecAt (w :: ws) 0 = .ok w := rfl
      obtain ⟨b, g, e, hb, -, h4⟩ := ofVecVecLoop_isBuf (w :: ws) _ ((w :: ws).length) 1 w.length (fun _ _ _ => none)
        (by simpa using BufIs.alloc (α := α) (r := (w :: ws).length) (c := w.length) (s := 1) (by omega) (by omega) (by omega))
        (by omega) (by omega) (fun v hv => by rw [hr v hv])
      have hread : ∀ (t : Nat) (h : t < (w :: ws).length) (u : Nat) (h' : u < (w :: ws)[t].length),
          b.read (idx w.length 1 (t + 1) (u + 1) 1) = .ok (w :: ws)[t][u] := by
        intro t ht u hu
        have hl := hr _ (List.getElem_mem ht)
        refine hb.read (i := t + 1) (j := u + 1) (k := 1) ⟨by omega, by omega, by omega, by omega, by omega, by omega⟩ ?_ rfl
        have := h4 t ht u hu
        rw [Int.add_comm 1 (t : Int), Int.add_comm 1 (u : Int)] at this
        exact this
      refine ⟨⟨(w :: ws).length, w.length, 1, b⟩, ?_, ⟨hb.hr, hb.hc, hb.hs, hb.len, ?_⟩, rfl, rfl, rfl, ?_⟩
      · unfold ofVecVec
        simp only [e1, Res.ok_bind]
        rw [List.length_cons, Int.natCast_add] 
        erw [e]; rfl
      · intro x hx
        obtain ⟨n, hn, rfl⟩ := List.mem_iff_getElem.1 hx
        have hl := hb.len
        simp only at hn ⊢
        obtain ⟨i, j, k, hi, e⟩ := idx_surj (n := n) hb.hc hb.hs (by omega)
          (by omega : (n:Int) < ((w :: ws).length : Int) * (w.length : Int) * 1)
        obtain ⟨i1, i2, i3, i4, i5, i6⟩ := hi
        have hti : (i - 1).toNat < (w :: ws).length := by omega
        have hl2 := hr _ (List.getElem_mem hti)
        have hv := h4 (i - 1).toNat hti (j - 1).toNat (by omega)
        have e2 : (1 : Int) + ((i - 1).toNat : Int) = i := by omega
        have e3 : (1 : Int) + ((j - 1).toNat : Int) = j := by omega
        have e4 : k = 1 := by omega
        rw [e2, e3] at hv
        subst e4
        have := hb.val i j 1 ⟨i1, i2, i3, i4, i5, i6⟩
        rw [hv, ← e, Int.toNat_natCast, List.getElem?_eq_getElem hn] at this
        rw [Option.some.inj this]; rfl
      · intro t ht u hu
        have hl := hr _ (List.getElem_mem ht)
        rw [← hread t ht u hu]
        unfold getElem2 index
        simp only
        rw [if_neg (by omega), if_neg (by omega), if_neg (by omega), if_neg (by omega)]

example : ofVecVec [[(1:Int), 2], [3, 4], [5, 6]] = .ok ⟨3, 2, 1, [some 1, some 2, some 3, some 4, some 5, some 6]⟩ := by decide
example : ofVecVec [[(1:Int), 2], [3]] = .throw .invalidArgument := by decide

/-! ### C05 -/

/-- C05: `resize(r,c)` keeps the common part and fills the rest with 0. Reads outside the new size exit. -/
theorem C05_resize [Zero α] {m : Mat α} (h : WF m) (r c : Int) :
    ((r < 1 ∨ c < 1) → m.resize r c = .exit 1) ∧
    (1 ≤ r → 1 ≤ c → ∃ m', m.resize r c = .ok m' ∧ WF m' ∧ m'.rows = r ∧ m'.cols = c ∧ m'.shel = 1 ∧
      ∀ i j, 1 ≤ i ∧ i ≤ r → 1 ≤ j ∧ j ≤ c →
        (i ≤ m.rows ∧ j ≤ m.cols → m'.getElem2 i j = m.getElem2 i j) ∧
        (¬ (i ≤ m.rows ∧ j ≤ m.cols) → m'.getElem2 i j = .ok 0)) := by
  constructor
  · intro hh
    unfold resize
    repeat' split
    all_goals first | rfl | omega
  · intro h1 h2
    obtain ⟨f, hf⟩ := h.exists_isMat
    obtain ⟨m', e, hm⟩ := resize_isMat hf (Or.inl h.shel1) h1 h2
    refine ⟨m', e, hm.wf h1 h2 (by omega), hm.rows, hm.cols, hm.shel, ?_⟩
    intro i j hi hj
    rw [hm.get2 (by omega) hi.1 hi.2 hj.1 hj.2]
    constructor
    · intro hin
      rw [hf.get2 h.shel1 hi.1 hin.1 hj.1 hin.2]
      simp [resizeF, hin]
    · intro hin
      simp [resizeF, hin]

example : ∃ m', ex23.resize 3 2 = .ok m' ∧ m'.elem = [some 1, some 2, some 4, some 5, some 0, some 0] := ⟨_, rfl, rfl⟩

/-! ### C06 -/

/-- C06: `a = b` makes `a` equal to `b`, for a single-shelf `b` and any initialised `a`, including the empty
`Matrix(0)`. -/
theorem C06_assign [Zero α] {a b : Mat α} (ha : Init a) (ha' : 1 ≤ a.shel ∨ a.rows = 0 ∨ a.cols = 0)
    (hb : WF b) (hs : b.shel = 1) : a.assign b = .ok b := by
  have := hb.nonempty
  obtain ⟨f, hf⟩ := ha.exists_isMat
  obtain ⟨g, hg⟩ := hb.exists_isMat
  obtain ⟨m', e, hm⟩ := assign_isMat hf ha' hg hb.rows1 hb.cols1 hb.shel1
  rw [e]
  rw [hs] at hg
  refine congrArg Res.ok (hm.ext' hg ?_)
  intro i j k hi
  have : k = 1 := by unfold InR at hi; omega
  rw [this]

/-- What C06 leaves out: for a multi-shelf right-hand side only shelf 1 is copied. -/
theorem C06_assign_multishelf [Zero α] {a b : Mat α} (ha : WF a) (hb : WF b) :
    ∃ m', a.assign b = .ok m' ∧ m'.shel = 1 ∧ m'.rows = b.rows ∧ m'.cols = b.cols ∧
      ∀ i j, m'.getElem2 i j = b.getElem2 i j := by
  obtain ⟨f, hf⟩ := ha.exists_isMat
  obtain ⟨g, hg⟩ := hb.exists_isMat
  obtain ⟨m', e, hm⟩ := assign_isMat hf (Or.inl ha.shel1) hg hb.rows1 hb.cols1 hb.shel1
  refine ⟨m', e, hm.shel, hm.rows, hm.cols, ?_⟩
  intro i j
  rw [hm.get2_eq (by omega), hg.get2_eq hb.shel1]

example : ex222.assign ex23 = .ok ex23 := by decide
example : (⟨0, 0, 0, []⟩ : Mat Int).assign ex23 = .ok ex23 := by decide

/-! ### C08 -/

/-- C08: `Matrix_copy` reproduces the matrix, all shelves included. -/
theorem C08_copy [Zero α] {m : Mat α} (h : WF m) : m.copy = .ok m := by
  obtain ⟨f, hf⟩ := h.exists_isMat
  obtain ⟨m', e, hm⟩ := copy_isMat hf h.rows1 h.cols1 h.shel1
  rw [e, hm.ext hf]

example : ex222.copy = .ok ex222 := by decide

/-! ### C09 -/

/-- C09: `invert` is transposition; entry (j,i) of the result reads like entry (i,j), for all integers i, j. -/
theorem C09_invert [Zero α] {m : Mat α} (h : WF m) (hs : m.shel = 1) :
    ∃ t, m.invert = .ok t ∧ WF t ∧ t.rows = m.cols ∧ t.cols = m.rows ∧ t.shel = 1 ∧
      (∀ i j, t.getElem2 j i = m.getElem2 i j) ∧ t.invert = .ok m := by
  obtain ⟨f, hf⟩ := h.exists_isMat
  rw [hs] at hf
  obtain ⟨t, e, ht⟩ := invert_isMat hf h.rows1 h.cols1
  obtain ⟨t2, e2, ht2⟩ := invert_isMat ht h.cols1 h.rows1
  refine ⟨t, e, ht.wf h.cols1 h.rows1 (by omega), ht.rows, ht.cols, ht.shel, ?_, ?_⟩
  · intro i j
    rw [ht.get2_eq (by omega), hf.get2_eq (by omega)]
    congr 1; apply propext; omega
  · rw [e2, ht2.ext hf]

/-- C09: a matrix with a number of shelves other than 1 is refused. -/
theorem C09_invert_refused [Zero α] (m : Mat α) (hs : m.shel ≠ 1) : m.invert = .exit 1 := by
  unfold invert; rw [if_pos hs]

example : ex23.invert = .ok ⟨3, 2, 1, [some 1, some 4, some 2, some 5, some 3, some 6]⟩ := by decide

end Verif.Mat
