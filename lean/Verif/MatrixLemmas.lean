import Verif.Matrix
/-
Helper lemmas about the matrix model. The central notion is `IsMat m r c s f`: `m` is an `r × c × s` matrix whose
buffer has the right size and holds `f i j k` at (1-based) coordinates `i j k`.
-/
namespace Verif

/-! ### arithmetic of the index function -/

theorem mulAdd_lt {x a s k : Int} (hx : 0 ≤ x) (hxa : x < a) (hk : 0 ≤ k) (hks : k < s) :
    0 ≤ x * s + k ∧ x * s + k < a * s := by
  have hs : 0 < s := by omega
  have h1 : 0 ≤ x * s := Int.mul_nonneg hx (Int.le_of_lt hs)
  have h2 : (x + 1) * s ≤ a * s := Int.mul_le_mul_of_nonneg_right (by omega) (Int.le_of_lt hs)
  rw [Int.add_mul] at h2
  omega

theorem mulAdd_inj {x y s k l : Int} (hk : 0 ≤ k) (hks : k < s) (hl : 0 ≤ l) (hls : l < s)
    (h : x * s + k = y * s + l) : x = y ∧ k = l := by
  have hs : 0 < s := by omega
  have hxy : x = y := by
    have e1 : (x * s + k) / s = x := by
      rw [Int.add_comm, Int.add_mul_ediv_right _ _ (by omega), Int.ediv_eq_zero_of_lt hk hks]; omega
    have e2 : (y * s + l) / s = y := by
      rw [Int.add_comm, Int.add_mul_ediv_right _ _ (by omega), Int.ediv_eq_zero_of_lt hl hls]; omega
    rw [← e1, ← e2, h]
  subst hxy
  omega

theorem mulAdd_surj {a s n : Int} (hs : 0 ≤ s) (hn : 0 ≤ n) (h : n < a * s) :
    ∃ x k, 0 ≤ x ∧ x < a ∧ 0 ≤ k ∧ k < s ∧ n = x * s + k := by
  have hs' : 0 < s := by
    rcases Int.lt_or_eq_of_le hs with h1 | h1
    · exact h1
    · subst h1; simp at h; omega
  refine ⟨n / s, n % s, Int.ediv_nonneg hn hs, ?_, Int.emod_nonneg _ (by omega), Int.emod_lt_of_pos _ hs', ?_⟩
  · exact Int.ediv_lt_of_lt_mul hs' h
  · have := Int.emod_add_mul_ediv n s
    rw [Int.mul_comm] at this; omega

namespace Mat

theorem idx_eq (c s i j k : Int) : idx c s i j k = ((i - 1) * c + (j - 1)) * s + (k - 1) := by
  unfold idx; rw [Int.add_mul]; omega

/-- In-range coordinates. -/
def InR (r c s i j k : Int) : Prop := 1 ≤ i ∧ i ≤ r ∧ 1 ≤ j ∧ j ≤ c ∧ 1 ≤ k ∧ k ≤ s

instance (r c s i j k : Int) : Decidable (InR r c s i j k) := by unfold InR; infer_instance

theorem idx_bounds {r c s i j k : Int} (h : InR r c s i j k) :
    0 ≤ idx c s i j k ∧ idx c s i j k < r * c * s := by
  obtain ⟨h1, h2, h3, h4, h5, h6⟩ := h
  rw [idx_eq]
  have := mulAdd_lt (x := i - 1) (a := r) (s := c) (k := j - 1) (by omega) (by omega) (by omega) (by omega)
  exact mulAdd_lt this.1 this.2 (by omega) (by omega)

theorem idx_inj {r c s i j k i' j' k' : Int} (h : InR r c s i j k) (h' : InR r c s i' j' k')
    (e : idx c s i j k = idx c s i' j' k') : i = i' ∧ j = j' ∧ k = k' := by
  obtain ⟨h1, h2, h3, h4, h5, h6⟩ := h
  obtain ⟨g1, g2, g3, g4, g5, g6⟩ := h'
  rw [idx_eq, idx_eq] at e
  obtain ⟨e1, e2⟩ := mulAdd_inj (by omega) (by omega) (by omega) (by omega) e
  obtain ⟨e3, e4⟩ := mulAdd_inj (by omega) (by omega) (by omega) (by omega) e1
  omega

theorem idx_surj {r c s n : Int} (hc : 0 ≤ c) (hs : 0 ≤ s) (hn : 0 ≤ n) (h : n < r * c * s) :
    ∃ i j k, InR r c s i j k ∧ n = idx c s i j k := by
  obtain ⟨x, k, hx, hxa, hk, hks, rfl⟩ := mulAdd_surj hs hn h
  obtain ⟨i, j, hi, hia, hj, hjs, rfl⟩ := mulAdd_surj hc hx hxa
  refine ⟨i + 1, j + 1, k + 1, ⟨by omega, by omega, by omega, by omega, by omega, by omega⟩, ?_⟩
  rw [idx_eq]; simp

variable {α : Type}

/-! ### buffers -/

/-- The buffer has the size for an `r × c × s` matrix and holds `f`. -/
structure BufIs (b : Buf α) (r c s : Int) (f : Int → Int → Int → Option α) : Prop where
  hr : 0 ≤ r
  hc : 0 ≤ c
  hs : 0 ≤ s
  len : (b.length : Int) = r * c * s
  val : ∀ i j k, InR r c s i j k → b[(idx c s i j k).toNat]? = some (f i j k)

/-- Pointwise update. -/
def upd (f : Int → Int → Int → β) (i j k : Int) (v : β) : Int → Int → Int → β :=
  fun x y z => if x = i ∧ y = j ∧ z = k then v else f x y z

theorem BufIs.congr {b : Buf α} {r c s f g} (h : BufIs b r c s f)
    (e : ∀ i j k, InR r c s i j k → f i j k = g i j k) : BufIs b r c s g :=
  ⟨h.hr, h.hc, h.hs, h.len, fun i j k hi => by rw [h.val i j k hi, e i j k hi]⟩

theorem BufIs.alloc {r c s : Int} (hr : 0 ≤ r) (hc : 0 ≤ c) (hs : 0 ≤ s) :
    BufIs (Buf.alloc (r * c * s) : Buf α) r c s (fun _ _ _ => none) := by
  have hp : 0 ≤ r * c * s := Int.mul_nonneg (Int.mul_nonneg hr hc) hs
  refine ⟨hr, hc, hs, ?_, ?_⟩
  · simp only [Buf.alloc, List.length_replicate]; omega
  · intro i j k h
    have := idx_bounds h
    simp only [Buf.alloc]
    rw [List.getElem?_replicate, if_pos (by omega)]

theorem BufIs.write {b : Buf α} {r c s f} (h : BufIs b r c s f) {i j k : Int} (hi : InR r c s i j k) (v : α)
    {p : Int} (hp : p = idx c s i j k) :
    ∃ b', b.write p v = .ok b' ∧ BufIs b' r c s (upd f i j k (some v)) := by
  subst hp
  have hb := idx_bounds hi
  have hl := h.len
  refine ⟨b.set (idx c s i j k).toNat (some v), ?_, h.hr, h.hc, h.hs, ?_, ?_⟩
  · unfold Buf.write; rw [if_pos ⟨hb.1, by omega⟩]
  · simp [hl]
  · intro x y z hx
    have hb' := idx_bounds hx
    rw [List.getElem?_set]
    by_cases e : idx c s i j k = idx c s x y z
    · obtain ⟨rfl, rfl, rfl⟩ := idx_inj hi hx e
      simp [upd]; omega
    · rw [if_neg (by omega), h.val x y z hx]
      unfold upd
      rw [if_neg]
      rintro ⟨rfl, rfl, rfl⟩; exact e rfl

theorem BufIs.read {b : Buf α} {r c s f} (h : BufIs b r c s f) {i j k : Int} (hi : InR r c s i j k) {v : α}
    (hv : f i j k = some v) {p : Int} (hp : p = idx c s i j k) : b.read p = .ok v := by
  subst hp
  have hb := idx_bounds hi
  unfold Buf.read
  rw [if_neg (by omega), h.val i j k hi, hv]

theorem BufIs.ext {b b' : Buf α} {r c s f} (h : BufIs b r c s f) (h' : BufIs b' r c s f) : b = b' := by
  have l1 := h.len
  have l2 := h'.len
  apply List.ext_getElem?
  intro n
  by_cases hn : (n : Int) < r * c * s
  · obtain ⟨i, j, k, hi, e⟩ := idx_surj h.hc h.hs (by omega) hn
    have e1 := h.val i j k hi
    have e2 := h'.val i j k hi
    rw [← e] at e1 e2
    simpa using e1.trans e2.symm
  · rw [List.getElem?_eq_none (by omega), List.getElem?_eq_none (by omega)]

/-- A loop of writes to positions `q x` of values given by `F` at these positions. -/
theorem BufIs.foldl {ι : Type} (L : List ι) (body : Buf α → ι → Res (Buf α)) {r c s : Int}
    (qi qj qk : ι → Int) (F : Int → Int → Int → Option α)
    (hq : ∀ x ∈ L, InR r c s (qi x) (qj x) (qk x))
    (hb : ∀ x ∈ L, ∀ b f, BufIs b r c s f → ∃ b', body b x = .ok b' ∧
      BufIs b' r c s (upd f (qi x) (qj x) (qk x) (F (qi x) (qj x) (qk x))))
    {b : Buf α} {f} (h : BufIs b r c s f) :
    ∃ b', L.foldlM body b = .ok b' ∧ ∃ g, BufIs b' r c s g ∧
      (∀ x ∈ L, g (qi x) (qj x) (qk x) = F (qi x) (qj x) (qk x)) ∧
      (∀ i j k, (∀ x ∈ L, ¬ (i = qi x ∧ j = qj x ∧ k = qk x)) → g i j k = f i j k) ∧
      (∀ i j k, g i j k = F i j k ∨ g i j k = f i j k) := by
  induction L generalizing b f with
  | nil => exact ⟨b, rfl, f, h, by simp, by simp, by simp⟩
  | cons x L ih =>
    obtain ⟨b1, e1, h1⟩ := hb x (by simp) b f h
    obtain ⟨b2, e2, g, h2, h3, h4, h5⟩ := ih (fun y hy => hq y (by simp [hy]))
      (fun y hy => hb y (by simp [hy])) h1
    refine ⟨b2, by simp [e1, e2], g, h2, ?_, ?_, ?_⟩
    · intro y hy
      rcases List.mem_cons.1 hy with rfl | hy
      · rcases h5 (qi y) (qj y) (qk y) with h5 | h5
        · exact h5
        · rw [h5]; simp [upd]
      · exact h3 y hy
    · intro i j k hn
      rw [h4 i j k (fun y hy => hn y (by simp [hy]))]
      unfold upd; rw [if_neg (hn x (by simp))]
    · intro i j k
      rcases h5 i j k with h5 | h5
      · exact Or.inl h5
      · rw [h5]; unfold upd; split
        · rename_i hh; obtain ⟨rfl, rfl, rfl⟩ := hh; exact Or.inl rfl
        · exact Or.inr rfl

/-! ### matrices -/

/-- `m` is a completely initialised `r × c × s` matrix with entries `f i j k`. -/
structure IsMat (m : Mat α) (r c s : Int) (f : Int → Int → Int → α) : Prop where
  rows : m.rows = r
  cols : m.cols = c
  shel : m.shel = s
  buf : BufIs m.elem r c s (fun i j k => some (f i j k))

theorem IsMat.congr {m : Mat α} {r c s f g} (h : IsMat m r c s f)
    (e : ∀ i j k, InR r c s i j k → f i j k = g i j k) : IsMat m r c s g :=
  ⟨h.rows, h.cols, h.shel, h.buf.congr (fun i j k hi => by rw [e i j k hi])⟩

theorem IsMat.ext {m m' : Mat α} {r c s f} (h : IsMat m r c s f) (h' : IsMat m' r c s f) : m = m' := by
  have := h.buf.ext h'.buf
  obtain ⟨a1, a2, a3, _⟩ := h
  obtain ⟨b1, b2, b3, _⟩ := h'
  cases m; cases m'; simp_all

theorem IsMat.ext' {m m' : Mat α} {r c s f g} (h : IsMat m r c s f) (h' : IsMat m' r c s g)
    (e : ∀ i j k, InR r c s i j k → f i j k = g i j k) : m = m' :=
  (h.congr e).ext h'

theorem IsMat.get3 {m : Mat α} {r c s f} (h : IsMat m r c s f) {i j k : Int} (hi : InR r c s i j k) :
    m.getElem3 i j k = .ok (f i j k) := by
  have := h.buf.read hi rfl rfl
  obtain ⟨h1, h2, h3, h4, h5, h6⟩ := hi
  unfold getElem3 index
  rw [h.rows, h.cols, h.shel, if_neg (by omega), if_neg (by omega), if_neg (by omega), if_neg (by omega),
    if_neg (by omega), if_neg (by omega), this]

theorem IsMat.get2 {m : Mat α} {r c f} (h : IsMat m r c s f) (hs : 1 ≤ s) {i j : Int}
    (h1 : 1 ≤ i) (h2 : i ≤ r) (h3 : 1 ≤ j) (h4 : j ≤ c) :
    m.getElem2 i j = .ok (f i j 1) := by
  have := h.buf.read (i := i) (j := j) (k := 1) ⟨h1, h2, h3, h4, by omega, hs⟩ rfl rfl
  unfold getElem2 index
  rw [h.rows, h.cols, h.shel, if_neg (by omega), if_neg (by omega), if_neg (by omega), if_neg (by omega), this]

theorem IsMat.get1 {m : Mat α} {r c f} (h : IsMat m r c s f) (hc : 1 ≤ c) (hs : 1 ≤ s) {i : Int}
    (h1 : 1 ≤ i) (h2 : i ≤ r) :
    m.getElem1 i = .ok (f i 1 1) := by
  have := h.buf.read (i := i) (j := 1) (k := 1) ⟨h1, h2, by omega, by omega, by omega, hs⟩ rfl rfl
  unfold getElem1 index
  rw [h.rows, h.cols, h.shel, if_neg (by omega), if_neg (by omega), this]

theorem IsMat.writeBuf {m : Mat α} {r c s f} (h : IsMat m r c s f) {i j k : Int} (hi : InR r c s i j k) (v : α)
    {p : Int} (hp : p = idx c s i j k) :
    ∃ b', m.elem.write p v = .ok b' ∧ IsMat { m with elem := b' } r c s (upd f i j k v) := by
  obtain ⟨b', e, hb⟩ := h.buf.write hi v hp
  refine ⟨b', e, h.rows, h.cols, h.shel, hb.congr ?_⟩
  intro x y z _; unfold upd; split <;> rfl

theorem IsMat.set3 {m : Mat α} {r c s f} (h : IsMat m r c s f) {i j k : Int} (hi : InR r c s i j k) (v : α) :
    ∃ m', m.setElem3 v i j k = .ok m' ∧ IsMat m' r c s (upd f i j k v) := by
  obtain ⟨b', e, hb⟩ := h.writeBuf hi v rfl
  obtain ⟨h1, h2, h3, h4, h5, h6⟩ := hi
  refine ⟨_, ?_, hb⟩
  unfold setElem3 index
  rw [h.rows, h.cols, h.shel, if_neg (by omega), if_neg (by omega), if_neg (by omega), if_neg (by omega),
    if_neg (by omega), if_neg (by omega), e]
  simp

theorem IsMat.set2 {m : Mat α} {r c s f} (h : IsMat m r c s f) (hs : 1 ≤ s) {i j : Int}
    (h1 : 1 ≤ i) (h2 : i ≤ r) (h3 : 1 ≤ j) (h4 : j ≤ c) (v : α) :
    ∃ m', m.setElem2 v i j = .ok m' ∧ IsMat m' r c s (upd f i j 1 v) := by
  obtain ⟨b', e, hb⟩ := h.writeBuf (i := i) (j := j) (k := 1) ⟨h1, h2, h3, h4, by omega, hs⟩ v rfl
  refine ⟨_, ?_, hb⟩
  unfold setElem2 index
  rw [h.rows, h.cols, h.shel, if_neg (by omega), if_neg (by omega), if_neg (by omega), if_neg (by omega), e]
  simp

theorem IsMat.set1 {m : Mat α} {r c s f} (h : IsMat m r c s f) (hc : 1 ≤ c) (hs : 1 ≤ s) {i : Int}
    (h1 : 1 ≤ i) (h2 : i ≤ r) (v : α) :
    ∃ m', m.setElem1 v i = .ok m' ∧ IsMat m' r c s (upd f i 1 1 v) := by
  obtain ⟨b', e, hb⟩ := h.writeBuf (i := i) (j := 1) (k := 1) ⟨h1, h2, by omega, hc, by omega, hs⟩ v rfl
  refine ⟨_, ?_, hb⟩
  unfold setElem1 index
  rw [h.rows, h.cols, h.shel, if_neg (by omega), if_neg (by omega), e]
  simp

/-- A loop whose body writes the value `F (q x)` at position `q x`. -/
theorem IsMat.foldl {ι : Type} (L : List ι) (body : Mat α → ι → Res (Mat α)) {r c s : Int}
    (qi qj qk : ι → Int) (F : Int → Int → Int → α)
    (hb : ∀ x ∈ L, ∀ m f, IsMat m r c s f → ∃ m', body m x = .ok m' ∧
      IsMat m' r c s (upd f (qi x) (qj x) (qk x) (F (qi x) (qj x) (qk x))))
    {m : Mat α} {f} (h : IsMat m r c s f) :
    ∃ m', L.foldlM body m = .ok m' ∧ ∃ g, IsMat m' r c s g ∧
      (∀ x ∈ L, g (qi x) (qj x) (qk x) = F (qi x) (qj x) (qk x)) ∧
      (∀ i j k, (∀ x ∈ L, ¬ (i = qi x ∧ j = qj x ∧ k = qk x)) → g i j k = f i j k) ∧
      (∀ i j k, g i j k = F i j k ∨ g i j k = f i j k) := by
  induction L generalizing m f with
  | nil => exact ⟨m, rfl, f, h, by simp, by simp, by simp⟩
  | cons x L ih =>
    obtain ⟨b1, e1, h1⟩ := hb x (by simp) m f h
    obtain ⟨b2, e2, g, h2, h3, h4, h5⟩ := ih (fun y hy => hb y (by simp [hy])) h1
    refine ⟨b2, by simp [e1, e2], g, h2, ?_, ?_, ?_⟩
    · intro y hy
      rcases List.mem_cons.1 hy with rfl | hy
      · rcases h5 (qi y) (qj y) (qk y) with h5 | h5
        · exact h5
        · rw [h5]; simp [upd]
      · exact h3 y hy
    · intro i j k hn
      rw [h4 i j k (fun y hy => hn y (by simp [hy]))]
      unfold upd; rw [if_neg (hn x (by simp))]
    · intro i j k
      rcases h5 i j k with h5 | h5
      · exact Or.inl h5
      · rw [h5]; unfold upd; split
        · rename_i hh; obtain ⟨rfl, rfl, rfl⟩ := hh; exact Or.inl rfl
        · exact Or.inr rfl

/-- Closed form of a loop of writes: `G` is the final content. -/
theorem IsMat.fill {ι : Type} (L : List ι) (body : Mat α → ι → Res (Mat α)) {r c s : Int}
    (qi qj qk : ι → Int) (G : Int → Int → Int → α)
    (hb : ∀ x ∈ L, ∀ m f, IsMat m r c s f → ∃ m', body m x = .ok m' ∧
      IsMat m' r c s (upd f (qi x) (qj x) (qk x) (G (qi x) (qj x) (qk x))))
    {m : Mat α} {f} (h : IsMat m r c s f)
    (hn : ∀ i j k, InR r c s i j k → (∀ x ∈ L, ¬ (i = qi x ∧ j = qj x ∧ k = qk x)) → f i j k = G i j k) :
    ∃ m', L.foldlM body m = .ok m' ∧ IsMat m' r c s G := by
  obtain ⟨m', e, g, hg, h1, h2, -⟩ := IsMat.foldl L body qi qj qk G hb h
  refine ⟨m', e, hg.congr ?_⟩
  intro i j k hi
  by_cases hv : ∃ x ∈ L, i = qi x ∧ j = qj x ∧ k = qk x
  · obtain ⟨x, hx, rfl, rfl, rfl⟩ := hv; exact h1 x hx
  · have hv' : ∀ x ∈ L, ¬ (i = qi x ∧ j = qj x ∧ k = qk x) := fun x hx hh => hv ⟨x, hx, hh⟩
    rw [h2 i j k hv', hn i j k hi hv']

theorem BufIs.fill {ι : Type} (L : List ι) (body : Buf α → ι → Res (Buf α)) {r c s : Int}
    (qi qj qk : ι → Int) (G : Int → Int → Int → Option α)
    (hq : ∀ x ∈ L, InR r c s (qi x) (qj x) (qk x))
    (hb : ∀ x ∈ L, ∀ b f, BufIs b r c s f → ∃ b', body b x = .ok b' ∧
      BufIs b' r c s (upd f (qi x) (qj x) (qk x) (G (qi x) (qj x) (qk x))))
    {b : Buf α} {f} (h : BufIs b r c s f)
    (hn : ∀ i j k, InR r c s i j k → (∀ x ∈ L, ¬ (i = qi x ∧ j = qj x ∧ k = qk x)) → f i j k = G i j k) :
    ∃ b', L.foldlM body b = .ok b' ∧ BufIs b' r c s G := by
  obtain ⟨m', e, g, hg, h1, h2, -⟩ := BufIs.foldl L body qi qj qk G hq hb h
  refine ⟨m', e, hg.congr ?_⟩
  intro i j k hi
  by_cases hv : ∃ x ∈ L, i = qi x ∧ j = qj x ∧ k = qk x
  · obtain ⟨x, hx, rfl, rfl, rfl⟩ := hv; exact h1 x hx
  · have hv' : ∀ x ∈ L, ¬ (i = qi x ∧ j = qj x ∧ k = qk x) := fun x hx hh => hv ⟨x, hx, hh⟩
    rw [h2 i j k hv', hn i j k hi hv']

theorem mem_pairs {lo hi lo2 hi2 : Int} {p : Int × Int} :
    p ∈ (irange lo hi).flatMap (fun i => (irange lo2 hi2).map (fun j => (i, j))) ↔
      (lo ≤ p.1 ∧ p.1 ≤ hi) ∧ (lo2 ≤ p.2 ∧ p.2 ≤ hi2) := by
  obtain ⟨a, b⟩ := p
  simp only [List.mem_flatMap, mem_irange, List.mem_map, Prod.mk.injEq]
  constructor
  · rintro ⟨x, hx, y, hy, rfl, rfl⟩; exact ⟨hx, hy⟩
  · rintro ⟨hx, hy⟩; exact ⟨a, hx, b, hy, rfl, rfl⟩

/-- A triply nested loop is one loop over the triples. -/
theorem _root_.Verif.forRange_nest3 {σ : Type u} (lo hi lo2 hi2 lo3 hi3 : Int) (s : σ)
    (body : σ → Int → Int → Int → Res σ) :
    forRange lo hi s (fun s i => forRange lo2 hi2 s (fun s j => forRange lo3 hi3 s (fun s k => body s i j k))) =
      ((irange lo hi).flatMap (fun i => (irange lo2 hi2).flatMap (fun j =>
        (irange lo3 hi3).map (fun k => (i, j, k))))).foldlM (fun s p => body s p.1 p.2.1 p.2.2) s := by
  unfold forRange
  generalize irange lo hi = L
  induction L generalizing s with
  | nil => rfl
  | cons a L ih =>
    simp only [List.foldlM_cons, List.flatMap_cons, List.foldlM_append, ih]
    congr 1
    have := forRange_nest lo2 hi2 lo3 hi3 s (fun s j k => body s a j k)
    unfold forRange at this
    rw [this]
    generalize irange lo2 hi2 = L2
    clear this ih
    induction L2 generalizing s with
    | nil => rfl
    | cons b L2 ih2 =>
      simp only [List.flatMap_cons, List.foldlM_append, List.foldlM_map, ih2]

theorem mem_triples {lo hi lo2 hi2 lo3 hi3 : Int} {p : Int × Int × Int} :
    p ∈ (irange lo hi).flatMap (fun i => (irange lo2 hi2).flatMap (fun j =>
        (irange lo3 hi3).map (fun k => (i, j, k)))) ↔
      (lo ≤ p.1 ∧ p.1 ≤ hi) ∧ (lo2 ≤ p.2.1 ∧ p.2.1 ≤ hi2) ∧ (lo3 ≤ p.2.2 ∧ p.2.2 ≤ hi3) := by
  obtain ⟨a, b, c⟩ := p
  simp only [List.mem_flatMap, mem_irange, List.mem_map, Prod.mk.injEq]
  constructor
  · rintro ⟨x, hx, y, hy, z, hz, rfl, rfl, rfl⟩; exact ⟨hx, hy, hz⟩
  · rintro ⟨hx, hy, hz⟩; exact ⟨a, hx, b, hy, c, hz, rfl, rfl, rfl⟩

theorem IsMat.fill1 {lo hi : Int} (body : Mat α → Int → Res (Mat α)) {r c s : Int}
    (qi qj qk : Int → Int) (G : Int → Int → Int → α)
    (hb : ∀ x, lo ≤ x → x ≤ hi → ∀ m f, IsMat m r c s f → ∃ m', body m x = .ok m' ∧
      IsMat m' r c s (upd f (qi x) (qj x) (qk x) (G (qi x) (qj x) (qk x))))
    {m : Mat α} {f} (h : IsMat m r c s f)
    (hn : ∀ i j k, InR r c s i j k → (∀ x, lo ≤ x → x ≤ hi → ¬ (i = qi x ∧ j = qj x ∧ k = qk x)) →
      f i j k = G i j k) :
    ∃ m', forRange lo hi m body = .ok m' ∧ IsMat m' r c s G :=
  IsMat.fill _ body qi qj qk G (fun x hx => hb x (mem_irange.1 hx).1 (mem_irange.1 hx).2) h
    (fun i j k hi hv => hn i j k hi (fun x h1 h2 => hv x (mem_irange.2 ⟨h1, h2⟩)))

theorem IsMat.fill2 {lo hi lo2 hi2 : Int} (body : Mat α → Int → Int → Res (Mat α)) {r c s : Int}
    (qi qj qk : Int → Int → Int) (G : Int → Int → Int → α)
    (hb : ∀ x y, lo ≤ x → x ≤ hi → lo2 ≤ y → y ≤ hi2 → ∀ m f, IsMat m r c s f → ∃ m', body m x y = .ok m' ∧
      IsMat m' r c s (upd f (qi x y) (qj x y) (qk x y) (G (qi x y) (qj x y) (qk x y))))
    {m : Mat α} {f} (h : IsMat m r c s f)
    (hn : ∀ i j k, InR r c s i j k →
      (∀ x y, lo ≤ x → x ≤ hi → lo2 ≤ y → y ≤ hi2 → ¬ (i = qi x y ∧ j = qj x y ∧ k = qk x y)) →
      f i j k = G i j k) :
    ∃ m', forRange lo hi m (fun m i => forRange lo2 hi2 m (fun m j => body m i j)) = .ok m' ∧
      IsMat m' r c s G := by
  rw [forRange_nest]
  refine IsMat.fill _ (fun m (p : Int × Int) => body m p.1 p.2) (fun p => qi p.1 p.2) (fun p => qj p.1 p.2)
    (fun p => qk p.1 p.2) G ?_ h ?_
  · intro x hx
    obtain ⟨⟨a, b⟩, c, d⟩ := mem_pairs.1 hx
    exact hb _ _ a b c d
  · intro i j k hi hv
    exact hn i j k hi (fun x y a b c d => hv (x, y) (mem_pairs.2 ⟨⟨a, b⟩, c, d⟩))

theorem IsMat.fill3 {lo hi lo2 hi2 lo3 hi3 : Int} (body : Mat α → Int → Int → Int → Res (Mat α)) {r c s : Int}
    (qi qj qk : Int → Int → Int → Int) (G : Int → Int → Int → α)
    (hb : ∀ x y z, lo ≤ x → x ≤ hi → lo2 ≤ y → y ≤ hi2 → lo3 ≤ z → z ≤ hi3 → ∀ m f, IsMat m r c s f →
      ∃ m', body m x y z = .ok m' ∧
      IsMat m' r c s (upd f (qi x y z) (qj x y z) (qk x y z) (G (qi x y z) (qj x y z) (qk x y z))))
    {m : Mat α} {f} (h : IsMat m r c s f)
    (hn : ∀ i j k, InR r c s i j k →
      (∀ x y z, lo ≤ x → x ≤ hi → lo2 ≤ y → y ≤ hi2 → lo3 ≤ z → z ≤ hi3 →
        ¬ (i = qi x y z ∧ j = qj x y z ∧ k = qk x y z)) →
      f i j k = G i j k) :
    ∃ m', forRange lo hi m (fun m i => forRange lo2 hi2 m (fun m j => forRange lo3 hi3 m (fun m k =>
      body m i j k))) = .ok m' ∧ IsMat m' r c s G := by
  rw [forRange_nest3]
  refine IsMat.fill _ (fun m (p : Int × Int × Int) => body m p.1 p.2.1 p.2.2) (fun p => qi p.1 p.2.1 p.2.2)
    (fun p => qj p.1 p.2.1 p.2.2) (fun p => qk p.1 p.2.1 p.2.2) G ?_ h ?_
  · intro x hx
    obtain ⟨⟨a, b⟩, ⟨c, d⟩, e, f⟩ := mem_triples.1 hx
    exact hb _ _ _ a b c d e f
  · intro i j k hi hv
    exact hn i j k hi (fun x y z a b c d e f => hv (x, y, z) (mem_triples.2 ⟨⟨a, b⟩, ⟨c, d⟩, e, f⟩))

theorem BufIs.fill1 {lo hi : Int} (body : Buf α → Int → Res (Buf α)) {r c s : Int}
    (qi qj qk : Int → Int) (G : Int → Int → Int → Option α)
    (hq : ∀ x, lo ≤ x → x ≤ hi → InR r c s (qi x) (qj x) (qk x))
    (hb : ∀ x, lo ≤ x → x ≤ hi → ∀ b f, BufIs b r c s f → ∃ b', body b x = .ok b' ∧
      BufIs b' r c s (upd f (qi x) (qj x) (qk x) (G (qi x) (qj x) (qk x))))
    {b : Buf α} {f} (h : BufIs b r c s f)
    (hn : ∀ i j k, InR r c s i j k → (∀ x, lo ≤ x → x ≤ hi → ¬ (i = qi x ∧ j = qj x ∧ k = qk x)) →
      f i j k = G i j k) :
    ∃ b', forRange lo hi b body = .ok b' ∧ BufIs b' r c s G :=
  BufIs.fill _ body qi qj qk G (fun x hx => hq x (mem_irange.1 hx).1 (mem_irange.1 hx).2)
    (fun x hx => hb x (mem_irange.1 hx).1 (mem_irange.1 hx).2) h
    (fun i j k hi hv => hn i j k hi (fun x h1 h2 => hv x (mem_irange.2 ⟨h1, h2⟩)))

theorem BufIs.fill2 {lo hi lo2 hi2 : Int} (body : Buf α → Int → Int → Res (Buf α)) {r c s : Int}
    (qi qj qk : Int → Int → Int) (G : Int → Int → Int → Option α)
    (hq : ∀ x y, lo ≤ x → x ≤ hi → lo2 ≤ y → y ≤ hi2 → InR r c s (qi x y) (qj x y) (qk x y))
    (hb : ∀ x y, lo ≤ x → x ≤ hi → lo2 ≤ y → y ≤ hi2 → ∀ b f, BufIs b r c s f → ∃ b', body b x y = .ok b' ∧
      BufIs b' r c s (upd f (qi x y) (qj x y) (qk x y) (G (qi x y) (qj x y) (qk x y))))
    {b : Buf α} {f} (h : BufIs b r c s f)
    (hn : ∀ i j k, InR r c s i j k →
      (∀ x y, lo ≤ x → x ≤ hi → lo2 ≤ y → y ≤ hi2 → ¬ (i = qi x y ∧ j = qj x y ∧ k = qk x y)) →
      f i j k = G i j k) :
    ∃ b', forRange lo hi b (fun m i => forRange lo2 hi2 m (fun m j => body m i j)) = .ok b' ∧
      BufIs b' r c s G := by
  rw [forRange_nest]
  refine BufIs.fill _ (fun m (p : Int × Int) => body m p.1 p.2) (fun p => qi p.1 p.2) (fun p => qj p.1 p.2)
    (fun p => qk p.1 p.2) G ?_ ?_ h ?_
  · intro x hx
    obtain ⟨⟨a, b⟩, c, d⟩ := mem_pairs.1 hx
    exact hq _ _ a b c d
  · intro x hx
    obtain ⟨⟨a, b⟩, c, d⟩ := mem_pairs.1 hx
    exact hb _ _ a b c d
  · intro i j k hi hv
    exact hn i j k hi (fun x y a b c d => hv (x, y) (mem_pairs.2 ⟨⟨a, b⟩, c, d⟩))

theorem BufIs.fill3 {lo hi lo2 hi2 lo3 hi3 : Int} (body : Buf α → Int → Int → Int → Res (Buf α)) {r c s : Int}
    (qi qj qk : Int → Int → Int → Int) (G : Int → Int → Int → Option α)
    (hq : ∀ x y z, lo ≤ x → x ≤ hi → lo2 ≤ y → y ≤ hi2 → lo3 ≤ z → z ≤ hi3 →
      InR r c s (qi x y z) (qj x y z) (qk x y z))
    (hb : ∀ x y z, lo ≤ x → x ≤ hi → lo2 ≤ y → y ≤ hi2 → lo3 ≤ z → z ≤ hi3 → ∀ b f, BufIs b r c s f →
      ∃ b', body b x y z = .ok b' ∧
      BufIs b' r c s (upd f (qi x y z) (qj x y z) (qk x y z) (G (qi x y z) (qj x y z) (qk x y z))))
    {b : Buf α} {f} (h : BufIs b r c s f)
    (hn : ∀ i j k, InR r c s i j k →
      (∀ x y z, lo ≤ x → x ≤ hi → lo2 ≤ y → y ≤ hi2 → lo3 ≤ z → z ≤ hi3 →
        ¬ (i = qi x y z ∧ j = qj x y z ∧ k = qk x y z)) →
      f i j k = G i j k) :
    ∃ b', forRange lo hi b (fun m i => forRange lo2 hi2 m (fun m j => forRange lo3 hi3 m (fun m k =>
      body m i j k))) = .ok b' ∧ BufIs b' r c s G := by
  rw [forRange_nest3]
  refine BufIs.fill _ (fun m (p : Int × Int × Int) => body m p.1 p.2.1 p.2.2) (fun p => qi p.1 p.2.1 p.2.2)
    (fun p => qj p.1 p.2.1 p.2.2) (fun p => qk p.1 p.2.1 p.2.2) G ?_ ?_ h ?_
  · intro x hx
    obtain ⟨⟨a, b⟩, ⟨c, d⟩, e, f⟩ := mem_triples.1 hx
    exact hq _ _ _ a b c d e f
  · intro x hx
    obtain ⟨⟨a, b⟩, ⟨c, d⟩, e, f⟩ := mem_triples.1 hx
    exact hb _ _ _ a b c d e f
  · intro i j k hi hv
    exact hn i j k hi (fun x y z a b c d e f => hv (x, y, z) (mem_triples.2 ⟨⟨a, b⟩, ⟨c, d⟩, e, f⟩))

end Mat
end Verif
