import Verif.MatrixLemmas
/-
What each matrix operation of the model does, in terms of `IsMat` (helper lemmas for the property files).
-/
namespace Verif.Mat
variable {α : Type}

theorem default_isMat [Zero α] : ∃ m, (default : Res (Mat α)) = .ok m ∧ IsMat m 1 1 1 (fun _ _ _ => 0) := by
  refine ⟨⟨1, 1, 1, [some 0]⟩, rfl, rfl, rfl, rfl, by omega, by omega, by omega, rfl, ?_⟩
  intro i j k ⟨h1, h2, h3, h4, h5, h6⟩
  have : i = 1 := by omega
  have : j = 1 := by omega
  have : k = 1 := by omega
  subst_vars; rfl

theorem mk1_isMat [Zero α] {r : Int} (h : 1 ≤ r) :
    ∃ m, (mk1 r : Res (Mat α)) = .ok m ∧ IsMat m r 1 1 (fun _ _ _ => 0) := by
  obtain ⟨b, e, hb⟩ := BufIs.fill1 (lo := 1) (hi := r) (fun (b : Buf α) i => b.write (i - 1) 0)
    (fun i => i) (fun _ => 1) (fun _ => 1) (fun _ _ _ => some 0)
    (fun x h1 h2 => ⟨h1, h2, by omega, by omega, by omega, by omega⟩)
    (fun x h1 h2 b f hb => hb.write ⟨h1, h2, by omega, by omega, by omega, by omega⟩ 0
      (by unfold idx; omega))
    (BufIs.alloc (r := r) (c := 1) (s := 1) (by omega) (by omega) (by omega))
    (fun i j k hi hv => absurd ⟨rfl, by have := hi; unfold InR at this; omega, by have := hi; unfold InR at this; omega⟩
      (hv i hi.1 hi.2.1))
  refine ⟨⟨r, 1, 1, b⟩, ?_, rfl, rfl, rfl, hb⟩
  simp only [Int.mul_one] at e
  unfold mk1
  rw [if_neg (by omega), if_neg (by omega), e]; rfl

theorem mk2_isMat [Zero α] {r c : Int} (hr : 1 ≤ r) (hc : 1 ≤ c) :
    ∃ m, (mk2 r c : Res (Mat α)) = .ok m ∧ IsMat m r c 1 (fun _ _ _ => 0) := by
  obtain ⟨b, e, hb⟩ := BufIs.fill2 (lo := 1) (hi := r) (lo2 := 1) (hi2 := c)
    (fun (b : Buf α) i j => b.write ((i - 1) * c + j - 1) 0)
    (fun i _ => i) (fun _ j => j) (fun _ _ => 1) (fun _ _ _ => some 0)
    (fun x y h1 h2 h3 h4 => ⟨h1, h2, h3, h4, by omega, by omega⟩)
    (fun x y h1 h2 h3 h4 b f hb => hb.write ⟨h1, h2, h3, h4, by omega, by omega⟩ 0
      (by rw [idx_eq]; omega))
    (BufIs.alloc (r := r) (c := c) (s := 1) (by omega) (by omega) (by omega))
    (fun i j k hi hv => absurd ⟨rfl, rfl, by have := hi; unfold InR at this; omega⟩
      (hv i j hi.1 hi.2.1 hi.2.2.1 hi.2.2.2.1))
  refine ⟨⟨r, c, 1, b⟩, ?_, rfl, rfl, rfl, hb⟩
  simp only [Int.mul_one] at e
  unfold mk2
  rw [if_neg (by omega), if_neg (by omega), e]; rfl

theorem mk3_isMat [Zero α] {r c s : Int} (hr : 1 ≤ r) (hc : 1 ≤ c) (hs : 1 ≤ s) :
    ∃ m, (mk3 r c s : Res (Mat α)) = .ok m ∧ IsMat m r c s (fun _ _ _ => 0) := by
  obtain ⟨b, e, hb⟩ := BufIs.fill3 (lo := 1) (hi := r) (lo2 := 1) (hi2 := c) (lo3 := 1) (hi3 := s)
    (fun (b : Buf α) i j k => b.write ((i - 1) * c * s + (j - 1) * s + k - 1) 0)
    (fun i _ _ => i) (fun _ j _ => j) (fun _ _ k => k) (fun _ _ _ => some 0)
    (fun x y z h1 h2 h3 h4 h5 h6 => ⟨h1, h2, h3, h4, h5, h6⟩)
    (fun x y z h1 h2 h3 h4 h5 h6 b f hb => hb.write ⟨h1, h2, h3, h4, h5, h6⟩ 0 rfl)
    (BufIs.alloc (r := r) (c := c) (s := s) (by omega) (by omega) (by omega))
    (fun i j k hi hv => absurd ⟨rfl, rfl, rfl⟩
      (hv i j k hi.1 hi.2.1 hi.2.2.1 hi.2.2.2.1 hi.2.2.2.2.1 hi.2.2.2.2.2))
  refine ⟨⟨r, c, s, b⟩, ?_, rfl, rfl, rfl, hb⟩
  unfold mk3
  rw [if_neg (by omega), if_neg (by omega), if_neg (by omega), e]; rfl

/-! ### vectors -/

theorem vecAt_ok {β : Type} {l : List β} {i : Int} (h0 : 0 ≤ i) {n : Nat} (hn : n = i.toNat) (h : n < l.length) :
    vecAt l i = .ok l[n] := by
  subst hn
  unfold vecAt
  rw [if_neg (by omega), List.getElem?_eq_getElem h]

theorem vecAt_out {β : Type} {l : List β} {i : Int} (h : i < 0 ∨ (l.length : Int) ≤ i) :
    vecAt l i = .throw .outOfRange := by
  unfold vecAt
  by_cases h0 : i < 0
  · rw [if_pos h0]
  · rw [if_neg h0, List.getElem?_eq_none (by omega)]

theorem ofVecLoop_isBuf (vs : List α) (b : Buf α) (n r : Int) (f) (hb : BufIs b n 1 1 f)
    (h0 : 1 ≤ r) (hn : r - 1 + vs.length = n) :
    ∃ b' g, ofVecLoop b r vs = .ok b' ∧ BufIs b' n 1 1 g ∧
      (∀ i j k, i < r → g i j k = f i j k) ∧
      (∀ (t : Nat) (h : t < vs.length), g (r + t) 1 1 = some vs[t]) := by
  induction vs generalizing b r f with
  | nil => exact ⟨b, f, rfl, hb, by simp, by simp⟩
  | cons v vs ih =>
    simp only [List.length_cons] at hn
    obtain ⟨b1, e1, h1⟩ := hb.write (i := r) (j := 1) (k := 1)
      ⟨h0, by omega, by omega, by omega, by omega, by omega⟩ v (p := (r - 1) * 1 + 1 - 1) (by unfold idx; omega)
    obtain ⟨b', g, e, h2, h3, h4⟩ := ih b1 (r + 1) _ h1 (by omega) (by omega)
    refine ⟨b', g, by rw [ofVecLoop, e1]; exact e, h2, ?_, ?_⟩
    · intro i j k hi
      rw [h3 i j k (by omega)]; unfold upd; rw [if_neg (by omega)]
    · intro t ht
      cases t with
      | zero => rw [h3 _ _ _ (by omega)]; simp [upd]
      | succ t =>
        have := h4 t (by simpa using ht)
        simp only [List.getElem_cons_succ]
        rw [← this]; congr 1; omega

theorem ofVec_isMat [Inhabited α] (v : List α) :
    ∃ m, ofVec v = .ok m ∧ IsMat m v.length 1 1 (fun i _ _ => v[(i - 1).toNat]!) := by
  obtain ⟨b', g, e, h2, h3, h4⟩ := ofVecLoop_isBuf v (Buf.alloc ((v.length : Int) * 1)) v.length 1 _
    (by simpa using BufIs.alloc (r := v.length) (c := 1) (s := 1) (by omega) (by omega) (by omega))
    (by omega) (by omega)
  refine ⟨⟨v.length, 1, 1, b'⟩, by simp only [ofVec, e]; rfl, rfl, rfl, rfl, h2.congr ?_⟩
  intro i j k ⟨i1, i2, i3, i4, i5, i6⟩
  have := h4 (i - 1).toNat (by omega)
  have e1 : (1 : Int) + ((i - 1).toNat : Int) = i := by omega
  have ej : j = 1 := by omega
  have ek : k = 1 := by omega
  subst ej ek
  rw [e1] at this
  rw [this, getElem!_pos]

theorem ofVecVecInner_isBuf (vs : List α) (b : Buf α) (n r cols c : Int) (f) (hb : BufIs b n cols 1 f)
    (h0 : 1 ≤ c) (hn : c - 1 + vs.length = cols) (hr1 : 1 ≤ r) (hr2 : r ≤ n) :
    ∃ b' g, ofVecVecInner cols r b c vs = .ok b' ∧ BufIs b' n cols 1 g ∧
      (∀ i j k, ¬ (i = r ∧ c ≤ j) → g i j k = f i j k) ∧
      (∀ (t : Nat) (h : t < vs.length), g r (c + t) 1 = some vs[t]) := by
  induction vs generalizing b c f with
  | nil => exact ⟨b, f, rfl, hb, by simp, by simp⟩
  | cons v vs ih =>
    simp only [List.length_cons] at hn
    obtain ⟨b1, e1, h1⟩ := hb.write (i := r) (j := c) (k := 1)
      ⟨by omega, by omega, by omega, by omega, by omega, by omega⟩ v (p := (r - 1) * cols + c - 1)
      (by rw [idx_eq]; omega)
    obtain ⟨b', g, e, h2, h3, h4⟩ := ih b1 (c + 1) _ h1 (by omega) (by omega)
    refine ⟨b', g, by simp [ofVecVecInner, e1, e], h2, ?_, ?_⟩
    · intro i j k hi
      rw [h3 i j k (by omega)]; unfold upd; rw [if_neg (by omega)]
    · intro t ht
      cases t with
      | zero => rw [h3 _ _ _ (by omega)]; simp [upd]
      | succ t =>
        have := h4 t (by simpa using ht)
        simp only [List.getElem_cons_succ]
        rw [← this]; congr 1; omega

theorem ofVecVecLoop_isBuf (vv : List (List α)) (b : Buf α) (n r cols : Int) (f) (hb : BufIs b n cols 1 f)
    (h0 : 1 ≤ r) (hn : r - 1 + vv.length = n) (hl : ∀ v ∈ vv, (v.length : Int) = cols) :
    ∃ b' g, ofVecVecLoop cols b r vv = .ok b' ∧ BufIs b' n cols 1 g ∧
      (∀ i j k, i < r → g i j k = f i j k) ∧
      (∀ (t : Nat) (h : t < vv.length) (u : Nat) (h' : u < vv[t].length), g (r + t) (1 + u) 1 = some vv[t][u]) := by
  induction vv generalizing b r f with
  | nil => exact ⟨b, f, rfl, hb, by simp, by simp⟩
  | cons v vs ih =>
    simp only [List.length_cons] at hn
    have hv : (v.length : Int) = cols := hl v (by simp)
    obtain ⟨b1, g1, e1, h1, h1a, h1b⟩ := ofVecVecInner_isBuf v b n r cols 1 f hb (by omega) (by omega) h0 (by omega)
    obtain ⟨b', g, e, h2, h3, h4⟩ := ih b1 (r + 1) _ h1 (by omega) (by omega) (fun w hw => hl w (by simp [hw]))
    refine ⟨b', g, by simp [ofVecVecLoop, hv, e1, e], h2, ?_, ?_⟩
    · intro i j k hi
      rw [h3 i j k (by omega), h1a i j k (by omega)]
    · intro t ht u hu
      cases t with
      | zero =>
        rw [h3 _ _ _ (by omega)]
        simpa using h1b u (by simpa using hu)
      | succ t =>
        have := h4 t (by simpa using ht) u (by simpa using hu)
        simp only [List.getElem_cons_succ]
        rw [← this]; congr 1; omega

theorem ofVecVecLoop_ragged (vv : List (List α)) (b : Buf α) (n r cols : Int) (f) (hb : BufIs b n cols 1 f)
    (h0 : 1 ≤ r) (hn : r - 1 + vv.length = n) (hl : ∃ v ∈ vv, (v.length : Int) ≠ cols) :
    ofVecVecLoop cols b r vv = .throw .invalidArgument := by
  induction vv generalizing b r f with
  | nil => simp at hl
  | cons v vs ih =>
    simp only [List.length_cons] at hn
    by_cases hv : (v.length : Int) = cols
    · obtain ⟨b1, g1, e1, h1, h1a, h1b⟩ := ofVecVecInner_isBuf v b n r cols 1 f hb (by omega) (by omega) h0 (by omega)
      have := ih b1 (r + 1) _ h1 (by omega) (by omega) (by
        obtain ⟨w, hw, hne⟩ := hl
        rcases List.mem_cons.1 hw with rfl | hw
        · exact absurd hv hne
        · exact ⟨w, hw, hne⟩)
      simp [ofVecVecLoop, hv, e1, this]
    · simp [ofVecVecLoop, hv]

/-! ### resize, assignment -/

/-- Content after `resize`. -/
def resizeF [Zero α] (f : Int → Int → Int → α) (rows cols : Int) : Int → Int → Int → α :=
  fun i j _ => if i ≤ rows ∧ j ≤ cols then f i j 1 else 0

theorem resize_isMat [Zero α] {m : Mat α} {rows cols shel f} (h : IsMat m rows cols shel f)
    (hs : 1 ≤ shel ∨ rows = 0 ∨ cols = 0) {r c : Int} (hr : 1 ≤ r) (hc : 1 ≤ c) :
    ∃ m', m.resize r c = .ok m' ∧ IsMat m' r c 1 (resizeF f rows cols) := by
  have hcopy : ∀ (temp : Buf α) (g) (i j : Int), BufIs temp r c 1 g → 1 ≤ i → i ≤ r → 1 ≤ j → j ≤ c →
      i ≤ rows → j ≤ cols →
      ∃ b', (do let v ← m.elem.read (m.index i j 1); temp.write ((i - 1) * c * 1 + (j - 1) * 1 + 1 - 1) v) = Res.ok b' ∧
      BufIs b' r c 1 (upd g i j 1 (some (resizeF f rows cols i j 1))) := by
    intro temp g i j ht h1 h2 h3 h4 h5 h6
    have hrd : m.elem.read (m.index i j 1) = .ok (f i j 1) :=
      h.buf.read (i := i) (j := j) (k := 1) ⟨h1, h5, h3, h6, by omega, by omega⟩ rfl
        (by unfold index; rw [h.cols, h.shel])
    obtain ⟨b', e, hb⟩ := ht.write (i := i) (j := j) (k := 1) ⟨h1, h2, h3, h4, by omega, by omega⟩ (f i j 1) rfl
    refine ⟨b', ?_, ?_⟩
    · rw [hrd]; exact e
    · simpa [resizeF, h5, h6] using hb
  have hzero : ∀ (temp : Buf α) (g) (i j : Int), BufIs temp r c 1 g → 1 ≤ i → i ≤ r → 1 ≤ j → j ≤ c →
      ¬ (i ≤ rows ∧ j ≤ cols) →
      ∃ b', temp.write ((i - 1) * c * 1 + (j - 1) * 1 + 1 - 1) 0 = Res.ok b' ∧
      BufIs b' r c 1 (upd g i j 1 (some (resizeF f rows cols i j 1))) := by
    intro temp g i j ht h1 h2 h3 h4 h5
    obtain ⟨b', e, hb⟩ := ht.write (i := i) (j := j) (k := 1) ⟨h1, h2, h3, h4, by omega, by omega⟩ 0 rfl
    refine ⟨b', e, ?_⟩
    simpa [resizeF, h5] using hb
  -- one common form of the five loops
  have main : ∀ body : Buf α → Int → Int → Res (Buf α),
      (∀ (temp : Buf α) (i j : Int) (g), BufIs temp r c 1 g → 1 ≤ i → i ≤ r → 1 ≤ j → j ≤ c →
        ∃ b', body temp i j = .ok b' ∧ BufIs b' r c 1 (upd g i j 1 (some (resizeF f rows cols i j 1)))) →
      ∃ b', forRange 1 r (Buf.alloc (r * c)) (fun temp i => forRange 1 c temp (fun temp j => body temp i j)) = .ok b' ∧
        BufIs b' r c 1 (fun i j k => some (resizeF f rows cols i j k)) := by
    intro body hbody
    refine BufIs.fill2 (lo := 1) (hi := r) (lo2 := 1) (hi2 := c) body (fun i _ => i) (fun _ j => j) (fun _ _ => 1)
      (fun i j k => some (resizeF f rows cols i j k))
      (fun x y h1 h2 h3 h4 => ⟨h1, h2, h3, h4, by omega, by omega⟩)
      (fun x y h1 h2 h3 h4 b g hb => hbody b x y g hb h1 h2 h3 h4)
      (by simpa using BufIs.alloc (r := r) (c := c) (s := 1) (by omega) (by omega) (by omega))
      (fun i j k hi hv => absurd ⟨rfl, rfl, by have := hi; unfold InR at this; omega⟩
        (hv i j hi.1 hi.2.1 hi.2.2.1 hi.2.2.2.1))
  unfold resize
  rw [if_neg (by omega), if_neg (by omega)]
  simp only [h.rows, h.cols]
  by_cases hr' : r ≤ rows
  · by_cases hc' : c ≤ cols
    · obtain ⟨b', e, hb⟩ := main _ (fun temp i j g ht h1 h2 h3 h4 =>
        hcopy temp g i j ht h1 h2 h3 h4 (by omega) (by omega))
      exact ⟨_, by simp only [hr', hc', if_true, e]; rfl, rfl, rfl, rfl, hb⟩
    · obtain ⟨b', e, hb⟩ := main (fun temp i j => if j ≤ cols then
          (do let v ← m.elem.read (m.index i j 1); temp.write ((i - 1) * c * 1 + (j - 1) * 1 + 1 - 1) v)
          else temp.write ((i - 1) * c * 1 + (j - 1) * 1 + 1 - 1) 0) (fun temp i j g ht h1 h2 h3 h4 => by
        by_cases hj : j ≤ cols
        · simp only [if_pos hj]; exact hcopy temp g i j ht h1 h2 h3 h4 (by omega) (by omega)
        · simp only [if_neg hj]; exact hzero temp g i j ht h1 h2 h3 h4 (by omega))
      exact ⟨_, by simp only [hr', hc', if_true, if_false, e]; rfl, rfl, rfl, rfl, hb⟩
  · by_cases hc' : c ≤ cols
    · obtain ⟨b', e, hb⟩ := main (fun temp i j => if i ≤ rows then
          (do let v ← m.elem.read (m.index i j 1); temp.write ((i - 1) * c * 1 + (j - 1) * 1 + 1 - 1) v)
          else temp.write ((i - 1) * c * 1 + (j - 1) * 1 + 1 - 1) 0) (fun temp i j g ht h1 h2 h3 h4 => by
        by_cases hj : i ≤ rows
        · simp only [if_pos hj]; exact hcopy temp g i j ht h1 h2 h3 h4 (by omega) (by omega)
        · simp only [if_neg hj]; exact hzero temp g i j ht h1 h2 h3 h4 (by omega))
      exact ⟨_, by simp only [hr', hc', if_true, if_false, e]; rfl, rfl, rfl, rfl, hb⟩
    · obtain ⟨b', e, hb⟩ := main (fun temp i j => if i ≤ rows ∧ j ≤ cols then
          (do let v ← m.elem.read (m.index i j 1); temp.write ((i - 1) * c * 1 + (j - 1) * 1 + 1 - 1) v)
          else temp.write ((i - 1) * c * 1 + (j - 1) * 1 + 1 - 1) 0) (fun temp i j g ht h1 h2 h3 h4 => by
        by_cases hj : i ≤ rows ∧ j ≤ cols
        · simp only [if_pos hj]; exact hcopy temp g i j ht h1 h2 h3 h4 hj.1 hj.2
        · simp only [if_neg hj]; exact hzero temp g i j ht h1 h2 h3 h4 hj)
      exact ⟨_, by simp only [hr', hc', if_false, e]; rfl, rfl, rfl, rfl, hb⟩

theorem assign_isMat [Zero α] {this m : Mat α} {r0 c0 s0 f0 r c s f} (h0 : IsMat this r0 c0 s0 f0)
    (hs0 : 1 ≤ s0 ∨ r0 = 0 ∨ c0 = 0) (h : IsMat m r c s f) (hr : 1 ≤ r) (hc : 1 ≤ c) (hs : 1 ≤ s) :
    ∃ m', this.assign m = .ok m' ∧ IsMat m' r c 1 (fun i j _ => f i j 1) := by
  obtain ⟨m1, e1, h1⟩ := resize_isMat h0 hs0 hr hc
  obtain ⟨m2, e2, h2⟩ := IsMat.fill2 (lo := 1) (hi := r) (lo2 := 1) (hi2 := c)
    (fun (this : Mat α) i j => do let v ← m.getElem2 i j; this.setElem2 v i j)
    (fun i _ => i) (fun _ j => j) (fun _ _ => 1) (fun i j _ => f i j 1)
    (fun x y a1 a2 a3 a4 mm ff hh => by
      rw [h.get2 hs a1 a2 a3 a4]
      exact hh.set2 (by omega) a1 a2 a3 a4 (f x y 1)) h1
    (fun i j k hi hv => absurd ⟨rfl, rfl, by have := hi; unfold InR at this; omega⟩
        (hv i j hi.1 hi.2.1 hi.2.2.1 hi.2.2.2.1))
  refine ⟨m2, ?_, h2⟩
  unfold assign
  rw [h.rows, h.cols, e1]; exact e2

/-! ### copies, transposition, concatenation, diagonal -/

theorem copy_isMat [Zero α] {m : Mat α} {r c s f} (h : IsMat m r c s f) (hr : 1 ≤ r) (hc : 1 ≤ c) (hs : 1 ≤ s) :
    ∃ m', m.copy = .ok m' ∧ IsMat m' r c s f := by
  obtain ⟨m1, e1, h1⟩ := mk3_isMat (α := α) hr hc hs
  obtain ⟨m2, e2, h2⟩ := IsMat.fill3 (lo := 1) (hi := r) (lo2 := 1) (hi2 := c) (lo3 := 1) (hi3 := s)
    (fun (m2 : Mat α) i j k => do let v ← m.getElem3 i j k; m2.setElem3 v i j k)
    (fun i _ _ => i) (fun _ j _ => j) (fun _ _ k => k) f
    (fun x y z a1 a2 a3 a4 a5 a6 mm ff hh => by
      rw [h.get3 ⟨a1, a2, a3, a4, a5, a6⟩]
      exact hh.set3 ⟨a1, a2, a3, a4, a5, a6⟩ (f x y z)) h1
    (fun i j k hi hv => absurd ⟨rfl, rfl, rfl⟩
        (hv i j k hi.1 hi.2.1 hi.2.2.1 hi.2.2.2.1 hi.2.2.2.2.1 hi.2.2.2.2.2))
  refine ⟨m2, ?_, h2⟩
  unfold copy
  rw [h.rows, h.cols, h.shel, e1]; exact e2

theorem invert_isMat [Zero α] {m : Mat α} {r c f} (h : IsMat m r c 1 f) (hr : 1 ≤ r) (hc : 1 ≤ c) :
    ∃ m', m.invert = .ok m' ∧ IsMat m' c r 1 (fun i j k => f j i k) := by
  obtain ⟨m1, e1, h1⟩ := mk2_isMat (α := α) hc hr
  obtain ⟨m2, e2, h2⟩ := IsMat.fill2 (lo := 1) (hi := r) (lo2 := 1) (hi2 := c)
    (fun (m2 : Mat α) i j => do let v ← m.getElem2 i j; m2.setElem2 v j i)
    (fun _ j => j) (fun i _ => i) (fun _ _ => 1) (fun i j k => f j i k)
    (fun x y a1 a2 a3 a4 mm ff hh => by
      rw [h.get2 (by omega) a1 a2 a3 a4]
      exact hh.set2 (by omega) a3 a4 a1 a2 (f x y 1)) h1
    (fun i j k hi hv => absurd ⟨rfl, rfl, by have := hi; unfold InR at this; omega⟩
        (hv j i hi.2.2.1 hi.2.2.2.1 hi.1 hi.2.1))
  refine ⟨m2, ?_, h2⟩
  unfold invert
  rw [h.rows, h.cols, h.shel, if_neg (by omega), e1]; exact e2

theorem getRow_isMat [Zero α] {m : Mat α} {r c s f} (h : IsMat m r c s f) (hc : 1 ≤ c) (hs : 1 ≤ s)
    {R : Int} (hR : 1 ≤ R) (hR' : R ≤ r) :
    ∃ m', m.getRow R = .ok m' ∧ IsMat m' 1 c s (fun _ j k => f R j k) := by
  obtain ⟨m1, e1, h1⟩ := mk3_isMat (α := α) (r := 1) (by omega) hc hs
  obtain ⟨m2, e2, h2⟩ := IsMat.fill2 (lo := 1) (hi := c) (lo2 := 1) (hi2 := s)
    (fun (m2 : Mat α) j k => do let v ← m.getElem3 R j k; m2.setElem3 v 1 j k)
    (fun _ _ => 1) (fun j _ => j) (fun _ k => k) (fun _ j k => f R j k)
    (fun x y a1 a2 a3 a4 mm ff hh => by
      rw [h.get3 ⟨hR, hR', a1, a2, a3, a4⟩]
      exact hh.set3 ⟨by omega, by omega, a1, a2, a3, a4⟩ (f R x y)) h1
    (fun i j k hi hv => absurd ⟨by have := hi; unfold InR at this; omega, rfl, rfl⟩
        (hv j k hi.2.2.1 hi.2.2.2.1 hi.2.2.2.2.1 hi.2.2.2.2.2))
  refine ⟨m2, ?_, h2⟩
  unfold getRow
  rw [h.rows, h.cols, h.shel, if_neg (by omega), e1]; exact e2

/-- `getCol` when the matrix has at least as many columns as rows: the result is `cols × 1`. -/
theorem getCol_isMat [Zero α] {m : Mat α} {r c s f} (h : IsMat m r c s f) (hc : 1 ≤ c) (hs : 1 ≤ s)
    (hrc : r ≤ c) {C : Int} (hC : 1 ≤ C) (hC' : C ≤ c) :
    ∃ m', m.getCol C = .ok m' ∧ IsMat m' c 1 s (fun i _ k => if i ≤ r then f i C k else 0) := by
  obtain ⟨m1, e1, h1⟩ := mk3_isMat (α := α) hc (c := 1) (by omega) hs
  obtain ⟨m2, e2, h2⟩ := IsMat.fill2 (lo := 1) (hi := r) (lo2 := 1) (hi2 := s)
    (fun (m2 : Mat α) i k => do let v ← m.getElem3 i C k; m2.setElem3 v i 1 k)
    (fun i _ => i) (fun _ _ => 1) (fun _ k => k) (fun i _ k => if i ≤ r then f i C k else 0)
    (fun x y a1 a2 a3 a4 mm ff hh => by
      rw [h.get3 ⟨a1, a2, hC, hC', a3, a4⟩]
      simpa [a2] using hh.set3 (i := x) (j := 1) (k := y) ⟨a1, by omega, by omega, by omega, a3, a4⟩ (f x C y)) h1
    (fun i j k hi hv => by
      by_cases hir : i ≤ r
      · exact absurd ⟨rfl, by have := hi; unfold InR at this; omega, rfl⟩
          (hv i k hi.1 hir hi.2.2.2.2.1 hi.2.2.2.2.2)
      · rw [if_neg hir])
  refine ⟨m2, ?_, h2⟩
  unfold getCol
  rw [h.rows, h.cols, h.shel, if_neg (by omega), e1]; exact e2

theorem concatRows_isMat [Zero α] {m1 m2 : Mat α} {r1 r2 c s f1 f2} (h1 : IsMat m1 r1 c s f1)
    (h2 : IsMat m2 r2 c s f2) (hr1 : 1 ≤ r1) (hr2 : 1 ≤ r2) (hc : 1 ≤ c) (hs : 1 ≤ s) :
    ∃ m', m1.concatRows m2 = .ok m' ∧
      IsMat m' (r1 + r2) c s (fun i j k => if i ≤ r1 then f1 i j k else f2 (i - r1) j k) := by
  obtain ⟨m3, e3, h3⟩ := mk3_isMat (α := α) (r := r1 + r2) (by omega) hc hs
  obtain ⟨m4, e4, h4⟩ := IsMat.fill3 (lo := 1) (hi := r1) (lo2 := 1) (hi2 := c) (lo3 := 1) (hi3 := s)
    (fun (m : Mat α) i j k => do let v ← m1.getElem3 i j k; m.setElem3 v i j k)
    (fun i _ _ => i) (fun _ j _ => j) (fun _ _ k => k) (fun i j k => if i ≤ r1 then f1 i j k else 0)
    (fun x y z a1 a2 a3 a4 a5 a6 mm ff hh => by
      rw [h1.get3 ⟨a1, a2, a3, a4, a5, a6⟩]
      simpa [a2] using hh.set3 ⟨a1, by omega, a3, a4, a5, a6⟩ (f1 x y z)) h3
    (fun i j k hi hv => by
      by_cases hir : i ≤ r1
      · exact absurd ⟨rfl, rfl, rfl⟩ (hv i j k hi.1 hir hi.2.2.1 hi.2.2.2.1 hi.2.2.2.2.1 hi.2.2.2.2.2)
      · rw [if_neg hir])
  obtain ⟨m5, e5, h5⟩ := IsMat.fill3 (lo := 1) (hi := r2) (lo2 := 1) (hi2 := c) (lo3 := 1) (hi3 := s)
    (fun (m : Mat α) i j k => do let v ← m2.getElem3 i j k; m.setElem3 v (i + r1) j k)
    (fun i _ _ => i + r1) (fun _ j _ => j) (fun _ _ k => k)
    (fun i j k => if i ≤ r1 then f1 i j k else f2 (i - r1) j k)
    (fun x y z a1 a2 a3 a4 a5 a6 mm ff hh => by
      rw [h2.get3 ⟨a1, a2, a3, a4, a5, a6⟩]
      have e : ¬ (x + r1 ≤ r1) := by omega
      have e' : x + r1 - r1 = x := by omega
      simpa [e, e'] using hh.set3 (i := x + r1) ⟨by omega, by omega, a3, a4, a5, a6⟩ (f2 x y z)) h4
    (fun i j k hi hv => by
      by_cases hir : i ≤ r1
      · simp [hir]
      · exact absurd ⟨by omega, rfl, rfl⟩
          (hv (i - r1) j k (by omega) (by have := hi.2.1; omega) hi.2.2.1 hi.2.2.2.1 hi.2.2.2.2.1 hi.2.2.2.2.2))
  refine ⟨m5, ?_, h5⟩
  unfold concatRows
  rw [h1.rows, h2.rows, h1.cols, h2.cols, h1.shel, h2.shel, if_neg (by omega), if_neg (by omega)]
  simp only [e3, Res.ok_bind, e4]; exact e5

theorem concatCols_isMat [Zero α] {m1 m2 : Mat α} {r c1 c2 s f1 f2} (h1 : IsMat m1 r c1 s f1)
    (h2 : IsMat m2 r c2 s f2) (hr : 1 ≤ r) (hc1 : 1 ≤ c1) (hc2 : 1 ≤ c2) (hs : 1 ≤ s) :
    ∃ m', m1.concatCols m2 = .ok m' ∧
      IsMat m' r (c1 + c2) s (fun i j k => if j ≤ c1 then f1 i j k else f2 i (j - c1) k) := by
  obtain ⟨m3, e3, h3⟩ := mk3_isMat (α := α) hr (c := c1 + c2) (by omega) hs
  obtain ⟨m4, e4, h4⟩ := IsMat.fill3 (lo := 1) (hi := r) (lo2 := 1) (hi2 := c1) (lo3 := 1) (hi3 := s)
    (fun (m : Mat α) i j k => do let v ← m1.getElem3 i j k; m.setElem3 v i j k)
    (fun i _ _ => i) (fun _ j _ => j) (fun _ _ k => k) (fun i j k => if j ≤ c1 then f1 i j k else 0)
    (fun x y z a1 a2 a3 a4 a5 a6 mm ff hh => by
      rw [h1.get3 ⟨a1, a2, a3, a4, a5, a6⟩]
      simpa [a4] using hh.set3 ⟨a1, a2, a3, by omega, a5, a6⟩ (f1 x y z)) h3
    (fun i j k hi hv => by
      by_cases hir : j ≤ c1
      · exact absurd ⟨rfl, rfl, rfl⟩ (hv i j k hi.1 hi.2.1 hi.2.2.1 hir hi.2.2.2.2.1 hi.2.2.2.2.2)
      · rw [if_neg hir])
  obtain ⟨m5, e5, h5⟩ := IsMat.fill3 (lo := 1) (hi := r) (lo2 := 1) (hi2 := c2) (lo3 := 1) (hi3 := s)
    (fun (m : Mat α) i j k => do let v ← m2.getElem3 i j k; m.setElem3 v i (j + c1) k)
    (fun i _ _ => i) (fun _ j _ => j + c1) (fun _ _ k => k)
    (fun i j k => if j ≤ c1 then f1 i j k else f2 i (j - c1) k)
    (fun x y z a1 a2 a3 a4 a5 a6 mm ff hh => by
      rw [h2.get3 ⟨a1, a2, a3, a4, a5, a6⟩]
      have e : ¬ (y + c1 ≤ c1) := by omega
      have e' : y + c1 - c1 = y := by omega
      simpa [e, e'] using hh.set3 (j := y + c1) ⟨a1, a2, by omega, by omega, a5, a6⟩ (f2 x y z)) h4
    (fun i j k hi hv => by
      by_cases hir : j ≤ c1
      · simp [hir]
      · exact absurd ⟨rfl, by omega, rfl⟩
          (hv i (j - c1) k hi.1 hi.2.1 (by omega) (by have := hi.2.2.2.1; omega) hi.2.2.2.2.1 hi.2.2.2.2.2))
  refine ⟨m5, ?_, h5⟩
  unfold concatCols
  rw [h1.rows, h2.rows, h1.cols, h2.cols, h1.shel, h2.shel, if_neg (by omega), if_neg (by omega)]
  simp only [e3, Res.ok_bind, e4]; exact e5

theorem diag_isMat [Zero α] {m : Mat α} {r c f} (h : IsMat m r c 1 f) (hr : 1 ≤ r) (hc : 1 ≤ c)
    (hv : r = 1 ∨ c = 1) :
    ∃ m', m.diag = .ok m' ∧ IsMat m' (max r c) (max r c) 1
      (fun i j _ => if i = j then (if c > r then f 1 i 1 else f i 1 1) else 0) := by
  by_cases hcr : c > r
  · have hr1 : r = 1 := by omega
    have hmax : max r c = c := by omega
    rw [hmax]
    obtain ⟨m1, e1, h1⟩ := mk2_isMat (α := α) hc hc
    obtain ⟨m2, e2, h2⟩ := IsMat.fill1 (lo := 1) (hi := c)
      (fun (m2 : Mat α) i => do let v ← m.getElem2 1 i; m2.setElem2 v i i)
      (fun i => i) (fun i => i) (fun _ => 1) (fun i j _ => if i = j then f 1 i 1 else 0)
      (fun x a1 a2 mm ff hh => by
        rw [h.get2 (by omega) (by omega) (by omega) a1 a2]
        simpa using hh.set2 (by omega) a1 a2 a1 a2 (f 1 x 1)) h1
      (fun i j k hi hv => by
        by_cases hij : i = j
        · exact absurd ⟨rfl, hij.symm, by have := hi; unfold InR at this; omega⟩ (hv i hi.1 hi.2.1)
        · simp [hij])
    refine ⟨m2, ?_, ?_⟩
    · unfold diag
      rw [h.rows, h.cols, h.shel, if_neg (by omega), if_neg (by omega), if_pos hcr]
      simp only [e1, Res.ok_bind]; exact e2
    · simpa [hcr] using h2
  · have hc1 : c = 1 := by omega
    have hmax : max r c = r := by omega
    rw [hmax]
    obtain ⟨m1, e1, h1⟩ := mk2_isMat (α := α) hr hr
    obtain ⟨m2, e2, h2⟩ := IsMat.fill1 (lo := 1) (hi := r)
      (fun (m2 : Mat α) i => do let v ← m.getElem2 i 1; m2.setElem2 v i i)
      (fun i => i) (fun i => i) (fun _ => 1) (fun i j _ => if i = j then f i 1 1 else 0)
      (fun x a1 a2 mm ff hh => by
        rw [h.get2 (by omega) a1 a2 (by omega) (by omega)]
        simpa using hh.set2 (by omega) a1 a2 a1 a2 (f x 1 1)) h1
      (fun i j k hi hv => by
        by_cases hij : i = j
        · exact absurd ⟨rfl, hij.symm, by have := hi; unfold InR at this; omega⟩ (hv i hi.1 hi.2.1)
        · simp [hij])
    refine ⟨m2, ?_, ?_⟩
    · unfold diag
      rw [h.rows, h.cols, h.shel, if_neg (by omega), if_neg (by omega), if_neg hcr]
      simp only [e1, Res.ok_bind]; exact e2
    · simpa [hcr] using h2

/-! ### product -/

/-- `0 + a 1 + a 2 + ... + a n`, added in this order (the accumulation of operator*). -/
def seqSum [Zero α] [Add α] (a : Int → α) (n : Int) : α := (irange 1 n).foldl (fun s k => s + a k) 0

theorem mulSum_ok [Zero α] [Add α] [Mul α] {A B : Int → Res α} {a b : Int → α} {n : Int}
    (hA : ∀ k, 1 ≤ k → k ≤ n → A k = .ok (a k)) (hB : ∀ k, 1 ≤ k → k ≤ n → B k = .ok (b k)) :
    forRange 1 n (0 : α) (fun sum k => do let x ← A k; let y ← B k; .ok (sum + x * y)) =
      .ok (seqSum (fun k => a k * b k) n) := by
  unfold forRange seqSum
  have : ∀ (L : List Int) (z : α), (∀ k ∈ L, A k = .ok (a k) ∧ B k = .ok (b k)) →
      L.foldlM (fun sum k => do let x ← A k; let y ← B k; Res.ok (sum + x * y)) z =
        .ok (L.foldl (fun s k => s + a k * b k) z) := by
    intro L
    induction L with
    | nil => intro z _; rfl
    | cons k L ih =>
      intro z hL
      obtain ⟨h1, h2⟩ := hL k (by simp)
      simp only [List.foldlM_cons, h1, h2, Res.ok_bind, List.foldl_cons]
      exact ih _ (fun k hk => hL k (by simp [hk]))
  exact this _ _ (fun k hk => ⟨hA k (mem_irange.1 hk).1 (mem_irange.1 hk).2, hB k (mem_irange.1 hk).1 (mem_irange.1 hk).2⟩)

theorem mul_isMat [Zero α] [Add α] [Mul α] {m1 m2 : Mat α} {r n c f g} (h1 : IsMat m1 r n 1 f)
    (h2 : IsMat m2 n c 1 g) (hr : 1 ≤ r) (hc : 1 ≤ c) :
    ∃ m', m1.mul m2 = .ok m' ∧
      IsMat m' r c 1 (fun i j _ => seqSum (fun k => f i k 1 * g k j 1) n) := by
  obtain ⟨m3, e3, h3⟩ := mk2_isMat (α := α) hr hc
  obtain ⟨m4, e4, h4⟩ := IsMat.fill2 (lo := 1) (hi := r) (lo2 := 1) (hi2 := c)
    (fun (m3 : Mat α) i j => do
        let sum ← forRange 1 n (0 : α) fun sum k => do
          let a ← m1.getElem2 i k
          let b ← m2.getElem2 k j
          .ok (sum + a * b)
        m3.setElem2 sum i j)
    (fun i _ => i) (fun _ j => j) (fun _ _ => 1) (fun i j _ => seqSum (fun k => f i k 1 * g k j 1) n)
    (fun x y a1 a2 a3 a4 mm ff hh => by
      rw [mulSum_ok (a := fun k => f x k 1) (b := fun k => g k y 1)
        (fun k b1 b2 => h1.get2 (by omega) a1 a2 b1 b2) (fun k b1 b2 => h2.get2 (by omega) b1 b2 a3 a4)]
      exact hh.set2 (by omega) a1 a2 a3 a4 _) h3
    (fun i j k hi hv => absurd ⟨rfl, rfl, by have := hi; unfold InR at this; omega⟩
        (hv i j hi.1 hi.2.1 hi.2.2.1 hi.2.2.2.1))
  refine ⟨m4, ?_, h4⟩
  unfold mul
  rw [h1.shel, h2.shel, h1.cols, h2.rows, h1.rows, h2.cols, if_neg (by omega), if_neg (by omega), e3]
  exact e4

/-! ### rows and columns -/

theorem setRow_isMat [Zero α] [Inhabited α] {m : Mat α} {r c s f} (h : IsMat m r c s f) (hs : 1 ≤ s)
    {R : Int} (hR : 1 ≤ R) (hR' : R ≤ r) {v : List α} (hv : (v.length : Int) = c) :
    ∃ m', m.setRow v R = .ok m' ∧
      IsMat m' r c s (fun i j k => if i = R ∧ k = 1 then v[(j - 1).toNat]! else f i j k) := by
  obtain ⟨m2, e2, h2⟩ := IsMat.fill1 (lo := 1) (hi := c)
    (fun (m : Mat α) j =>
      if R ≤ m.rows then do
        let v ← vecAt v (j - 1)
        let b ← m.elem.write (m.index R j 1) v
        .ok { m with elem := b }
      else do
        let b ← m.elem.write (m.index R j 1) 0
        .ok { m with elem := b })
    (fun _ => R) (fun j => j) (fun _ => 1) (fun i j k => if i = R ∧ k = 1 then v[(j - 1).toNat]! else f i j k)
    (fun x a1 a2 mm ff hh => by
      obtain ⟨b', e, hb⟩ := hh.writeBuf (i := R) (j := x) (k := 1) ⟨hR, hR', a1, a2, by omega, hs⟩
        (v[(x - 1).toNat]!) (p := mm.index R x 1) (by unfold index; rw [hh.cols, hh.shel])
      refine ⟨_, ?_, by simpa using hb⟩
      rw [hh.rows, if_pos hR', vecAt_ok (n := (x - 1).toNat) (by omega) rfl (by omega),
        ← getElem!_pos v (x - 1).toNat (by omega)]
      simp only [Res.ok_bind, e]) h
    (fun i j k hi hv => by
      by_cases hir : i = R ∧ k = 1
      · exact absurd ⟨hir.1, rfl, hir.2⟩ (hv j hi.2.2.1 hi.2.2.2.1)
      · rw [if_neg hir])
  refine ⟨m2, ?_, h2⟩
  unfold setRow
  rw [h.cols, if_neg (by omega)]; exact e2

/-- `set_col` when the matrix has at most as many rows as columns. -/
theorem setCol_isMat [Zero α] [Inhabited α] {m : Mat α} {r c s f} (h : IsMat m r c s f) (hs : 1 ≤ s) (hrc : r ≤ c)
    {C : Int} (hC : 1 ≤ C) (hC' : C ≤ c) {v : List α} (hv : (v.length : Int) = c) :
    ∃ m', m.setCol v C = .ok m' ∧
      IsMat m' r c s (fun i j k => if j = C ∧ k = 1 then v[(i - 1).toNat]! else f i j k) := by
  obtain ⟨m2, e2, h2⟩ := IsMat.fill1 (lo := 1) (hi := r)
    (fun (m : Mat α) i =>
      if C ≤ m.cols then do
        let v ← vecAt v (i - 1)
        let b ← m.elem.write (m.index i C 1) v
        .ok { m with elem := b }
      else do
        let b ← m.elem.write (m.index i C 1) 0
        .ok { m with elem := b })
    (fun i => i) (fun _ => C) (fun _ => 1) (fun i j k => if j = C ∧ k = 1 then v[(i - 1).toNat]! else f i j k)
    (fun x a1 a2 mm ff hh => by
      obtain ⟨b', e, hb⟩ := hh.writeBuf (i := x) (j := C) (k := 1) ⟨a1, a2, hC, hC', by omega, hs⟩
        (v[(x - 1).toNat]!) (p := mm.index x C 1) (by unfold index; rw [hh.cols, hh.shel])
      refine ⟨_, ?_, by simpa using hb⟩
      rw [hh.cols, if_pos hC', vecAt_ok (n := (x - 1).toNat) (by omega) rfl (by omega),
        ← getElem!_pos v (x - 1).toNat (by omega)]
      simp only [Res.ok_bind, e]) h
    (fun i j k hi hv => by
      by_cases hir : j = C ∧ k = 1
      · exact absurd ⟨rfl, hir.1, hir.2⟩ (hv i hi.1 hi.2.1)
      · rw [if_neg hir])
  refine ⟨m2, ?_, h2⟩
  unfold setCol
  rw [h.cols, h.rows, if_neg (by omega)]; exact e2

theorem collect_ok {β : Type} {A : Int → Res β} {a : Int → β} {n : Int}
    (hA : ∀ k, 1 ≤ k → k ≤ n → A k = .ok (a k)) :
    forRange 1 n ([] : List β) (fun acc i => do let v ← A i; .ok (acc ++ [v])) = .ok ((irange 1 n).map a) := by
  unfold forRange
  have : ∀ (L : List Int) (z : List β), (∀ k ∈ L, A k = .ok (a k)) →
      L.foldlM (fun acc i => do let v ← A i; Res.ok (acc ++ [v])) z = .ok (z ++ L.map a) := by
    intro L
    induction L with
    | nil => intro z _; simp
    | cons k L ih =>
      intro z hL
      simp only [List.foldlM_cons, hL k (by simp), Res.ok_bind]
      rw [ih _ (fun k hk => hL k (by simp [hk]))]; simp
  simpa using this (irange 1 n) [] (fun k hk => hA k (mem_irange.1 hk).1 (mem_irange.1 hk).2)

theorem getRowVec_ok {m : Mat α} {r c s f} (h : IsMat m r c s f) (hs : 1 ≤ s)
    {R : Int} (hR : 1 ≤ R) (hR' : R ≤ r) : m.getRowVec R = .ok ((irange 1 c).map (fun j => f R j 1)) := by
  unfold getRowVec
  rw [h.cols]
  exact collect_ok (fun k h1 h2 => h.buf.read (i := R) (j := k) (k := 1) ⟨hR, hR', h1, h2, by omega, hs⟩ rfl
    (by unfold index; rw [h.cols, h.shel]))

theorem getColVec_ok {m : Mat α} {r c s f} (h : IsMat m r c s f) (hs : 1 ≤ s)
    {C : Int} (hC : 1 ≤ C) (hC' : C ≤ c) : m.getColVec C = .ok ((irange 1 r).map (fun i => f i C 1)) := by
  unfold getColVec
  rw [h.rows]
  exact collect_ok (fun k h1 h2 => h.buf.read (i := k) (j := C) (k := 1) ⟨h1, h2, hC, hC', by omega, hs⟩ rfl
    (by unfold index; rw [h.cols, h.shel]))

theorem getElem!_map_irange {β : Type} [Inhabited β] {n i : Int} (h1 : 1 ≤ i) (h2 : i ≤ n) (g : Int → β) :
    ((irange 1 n).map g)[(i - 1).toNat]! = g i := by
  rw [getElem!_pos _ _ (by simp; omega)]
  simp only [List.getElem_map, getElem_irange]
  congr 1; omega

end Verif.Mat
