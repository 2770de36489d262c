import Verif.IntsJob
import Verif.IntsLemmas
/-
Where checked and mathematical integers agree in the rest of the calculation.
-/
namespace Verif.Ints
open QC Readers
variable {α : Type}

theorem foldlM_eq {σ τ : Type} {f g : σ → τ → Res σ} (P : σ → List τ → Prop) {l : List τ} {s : σ} (h0 : P s l)
    (step : ∀ s x xs, P s (x :: xs) → f s x = g s x) (post : ∀ s x xs s', P s (x :: xs) → g s x = .ok s' → P s' xs) :
    l.foldlM f s = l.foldlM g s := by
  induction l generalizing s with
  | nil => rfl
  | cons x xs ih =>
    rw [List.foldlM_cons, List.foldlM_cons]
    exact bind_eq (step s x xs h0) fun s' e => ih (post s x xs s' h0 e)

theorem foldlM_post {σ τ : Type} {g : σ → τ → Res σ} (P : σ → Prop) {l : List τ} {s s' : σ} (h0 : P s)
    (post : ∀ s x s', x ∈ l → P s → g s x = .ok s' → P s') (h : l.foldlM g s = .ok s') : P s' := by
  induction l generalizing s with
  | nil => cases h; exact h0
  | cons x xs ih =>
    rw [List.foldlM_cons] at h
    obtain ⟨s1, e1, h⟩ := Res.bind_eq_ok.1 h
    exact ih (post s x s1 (by simp) h0 e1) (fun s y s' hy => post s y s' (by simp [hy])) h

/-- A matrix, possibly without columns, of fewer than 2^31 - 1 elements. -/
def Room (m : Mat α) : Prop := 1 ≤ m.shel ∧ m.rows * m.cols * m.shel < 2147483647

theorem getElem2_room {m : Mat α} (h : Room m) (r c : Int) : getElem2 m r c = m.getElem2 r c := by
  unfold getElem2 Mat.getElem2
  split
  · rfl
  split
  · rfl
  split
  · rfl
  split
  · rfl
  rw [index_ok (R := m.rows) (by omega) (by omega) (by have := h.1; omega) (by have := h.2; omega)]
  rfl

/-! ### matrices from vectors -/

theorem ofVecLoop_eq {b : Buf α} {r : Int} {v : List α} (h1 : 1 ≤ r) (h2 : r + v.length ≤ 2147483647) :
    ofVecLoop b r v = Mat.ofVecLoop b r v := by
  induction v generalizing b r with
  | nil => rfl
  | cons x v ih =>
    rw [List.length_cons] at h2
    push_cast at h2
    rw [ofVecLoop, Mat.ofVecLoop]
    unfold sub mul add
    rw [fit_ok (by omega) (by omega)]
    simp only [Res.ok_bind]
    rw [fit_ok (by omega) (by omega)]
    simp only [Res.ok_bind]
    rw [fit_ok (by omega) (by omega)]
    simp only [Res.ok_bind]
    rw [fit_ok (by omega) (by omega)]
    simp only [Res.ok_bind]
    refine bind_eq rfl fun b' _ => ?_
    rw [fit_ok (by omega) (by omega)]
    simp only [Res.ok_bind]
    exact ih (by omega) (by omega)

theorem ofVec_eq {v : List α} (h : v.length < 2147483647) : ofVec v = Mat.ofVec v := by
  unfold ofVec Mat.ofVec mul
  rw [fit_ok (by omega) (by omega)]
  simp only [Res.ok_bind]
  rw [fit_ok (by omega) (by omega)]
  simp only [Res.ok_bind]
  exact bind_eq (ofVecLoop_eq (by omega) (by omega)) fun _ _ => rfl

theorem ofVec_dims {v : List α} {m : Mat α} (h : Mat.ofVec v = .ok m) : Dims v.length 1 1 m := by
  unfold Mat.ofVec at h
  obtain ⟨b, -, h⟩ := Res.bind_eq_ok.1 h
  cases h; exact ⟨rfl, rfl, rfl⟩

theorem ofVecVecInner_eq {cols r : Int} {b : Buf α} {c : Int} {v : List α} {R : Int} (hr : 1 ≤ r) (hR : r ≤ R) (hc : 1 ≤ c)
    (hv : c + v.length ≤ cols + 1) (hp : R * cols < 2147483647) : ofVecVecInner cols r b c v = Mat.ofVecVecInner cols r b c v := by
  induction v generalizing b c with
  | nil => rfl
  | cons x v ih =>
    rw [List.length_cons] at hv
    push_cast at hv
    rw [ofVecVecInner, Mat.ofVecVecInner]
    have a1 : 0 ≤ (r - 1) * cols := Int.mul_nonneg (by omega) (by omega)
    have a2 : (r - 1) * cols + cols ≤ R * cols := by nlinarith
    have a3 : R ≤ R * cols := by nlinarith
    unfold sub mul add
    rw [fit_ok (by omega) (by omega)]
    simp only [Res.ok_bind]
    rw [fit_ok (by omega) (by omega)]
    simp only [Res.ok_bind]
    rw [fit_ok (by omega) (by omega)]
    simp only [Res.ok_bind]
    rw [fit_ok (by omega) (by omega)]
    simp only [Res.ok_bind]
    refine bind_eq rfl fun b' _ => ?_
    rw [fit_ok (by omega) (by omega)]
    simp only [Res.ok_bind]
    exact ih (by omega) (by omega)

theorem ofVecVecLoop_eq {cols : Int} {b : Buf α} {r : Int} {vv : List (List α)} {R : Int} (hr : 1 ≤ r) (hR : r + vv.length ≤ R + 1)
    (hl : ∀ v ∈ vv, v.length < 2147483647) (hR' : R < 2147483647) (hp : R * cols < 2147483647) :
    ofVecVecLoop cols b r vv = Mat.ofVecVecLoop cols b r vv := by
  induction vv generalizing b r with
  | nil => rfl
  | cons v vv ih =>
    rw [List.length_cons] at hR
    push_cast at hR
    rw [ofVecVecLoop, Mat.ofVecVecLoop]
    have := hl v (by simp)
    rw [fit_ok (by omega) (by omega)]
    simp only [Res.ok_bind]
    split
    · rfl
    rename_i hc
    refine bind_eq (ofVecVecInner_eq (R := R) hr (by omega) (by omega) (by omega) hp) fun b' _ => ?_
    unfold add
    rw [fit_ok (by omega) (by omega)]
    simp only [Res.ok_bind]
    exact ih (by omega) (by omega) fun w hw => hl w (by simp [hw])

theorem ofVecVec_eq {vv : List (List α)} (h1 : vv.length < 2147483647) (hl : ∀ v ∈ vv, v.length < 2147483647)
    (hp : ∀ v ∈ vv, (vv.length : Int) * v.length < 2147483647) : ofVecVec vv = Mat.ofVecVec vv := by
  unfold ofVecVec Mat.ofVecVec
  rw [fit_ok (by omega) (by omega)]
  simp only [Res.ok_bind]
  refine bind_eq rfl fun v0 e0 => ?_
  have hv0 : v0 ∈ vv := by
    unfold vecAt at e0
    rw [if_neg (by omega)] at e0
    split at e0
    · rename_i v hv
      cases e0
      exact List.mem_of_getElem? hv
    · cases e0
  have l0 := hl _ hv0
  have p0 := hp _ hv0
  have : 0 ≤ (vv.length : Int) * v0.length := Int.mul_nonneg (by omega) (by omega)
  unfold mul
  rw [fit_ok (by omega) (by omega)]
  simp only [Res.ok_bind]
  rw [fit_ok (by omega) (by omega)]
  simp only [Res.ok_bind]
  exact bind_eq (ofVecVecLoop_eq (R := vv.length) (by omega) (by omega) hl (by omega) p0) fun _ _ => rfl

theorem ofVecVec_dims {vv : List (List α)} {m : Mat α} (h : Mat.ofVecVec vv = .ok m) :
    ∃ v ∈ vv, Dims vv.length v.length 1 m := by
  unfold Mat.ofVecVec at h
  obtain ⟨v0, e0, h⟩ := Res.bind_eq_ok.1 h
  obtain ⟨b, -, h⟩ := Res.bind_eq_ok.1 h
  cases h
  refine ⟨v0, ?_, rfl, rfl, rfl⟩
  unfold vecAt at e0
  rw [if_neg (by omega)] at e0
  split at e0
  · rename_i v hv
    cases e0
    exact List.mem_of_getElem? hv
  · cases e0

/-! ### matching -/

theorem allMatch_eq {β : Type} [DecidableEq β] (tos : α → β) {f g f' g' : Int → Res α} (hf : ∀ j, f j = f' j) (hg : ∀ j, g j = g' j)
    {l : List Int} (hl : ∀ j ∈ l, -2147483648 ≤ j ∧ j < 2147483647) : allMatch tos f g l = Mat.allMatch tos f' g' l := by
  induction l with
  | nil => rfl
  | cons j l ih =>
    rw [allMatch, Mat.allMatch]
    refine bind_eq (hf j) fun a _ => bind_eq (hg j) fun b _ => ?_
    split
    · rfl
    · have := hl j (by simp)
      unfold add
      rw [fit_ok (by omega) (by omega)]
      simp only [Res.ok_bind]
      exact ih fun k hk => hl k (by simp [hk])

theorem matchCol_eq {β : Type} [DecidableEq β] (tos : α → β) {m mat : Mat α} (h : Room m) (h' : Room mat)
    (hr : m.rows < 2147483647) (hc : m.cols < 2147483647) (hc' : mat.cols < 2147483647) : matchCol tos m mat = Mat.matchCol tos m mat := by
  unfold matchCol Mat.matchCol
  split
  · rfl
  split
  · rfl
  refine loop_eq (fun _ => True) (by omega) hc trivial (fun i b i1 i2 _ => ?_) (fun _ _ _ _ _ => trivial)
  refine loop_eq (fun _ => True) (by omega) hc' trivial (fun ii b j1 j2 _ => ?_) (fun _ _ _ _ _ => trivial)
  refine bind_eq (allMatch_eq tos (fun j => getElem2_room h j i) (fun j => getElem2_room h' j ii) fun j hj => ?_) fun ok _ => ?_
  · have := mem_irange.1 hj
    omega
  · cases ok
    · rfl
    · unfold sub
      rw [if_pos rfl, if_pos rfl, fit_ok (by omega) (by omega)]
      rfl

theorem matchCol_range {β : Type} [DecidableEq β] (tos : α → β) {m mat : Mat α} {l : List Int} (h : Mat.matchCol tos m mat = .ok l) :
    (∀ x ∈ l, -1 ≤ x ∧ (x ≤ 0 ∨ x ≤ mat.cols)) ∧ l.length = m.cols.toNat := by
  unfold Mat.matchCol at h
  split at h
  · cases h
  split at h
  · cases h
  unfold forRange at h
  refine foldlM_post (fun l => (∀ x ∈ l, -1 ≤ x ∧ (x ≤ 0 ∨ x ≤ mat.cols)) ∧ l.length = m.cols.toNat) ⟨?_, by simp⟩
    (fun l i l' _ hl e => ?_) h
  · intro x hx
    rw [List.eq_of_mem_replicate hx]
    omega
  refine foldlM_post (fun l => (∀ x ∈ l, -1 ≤ x ∧ (x ≤ 0 ∨ x ≤ mat.cols)) ∧ l.length = m.cols.toNat) hl
    (fun l ii l' hii hl e => ?_) e
  have hii := mem_irange.1 hii
  obtain ⟨ok, -, e⟩ := Res.bind_eq_ok.1 e
  split at e
  · unfold Mat.vecSet at e
    split at e
    · cases e
      refine ⟨fun x hx => ?_, by simpa using hl.2⟩
      rcases List.mem_or_eq_of_mem_set hx with hx | rfl
      · exact hl.1 x hx
      · omega
    · cases e
  · cases e; exact hl

/-! ### exchanging -/

/-- All numbers of a list of requests have `p - 1` in range. -/
def Moderate (l : List (Int × Int)) : Prop := ∀ p ∈ l, -1 ≤ p.1 ∧ p.1 ≤ 2147483647 ∧ -1 ≤ p.2 ∧ p.2 ≤ 2147483647

theorem sweep_moderate {was is : Int} (h : -1 ≤ is ∧ is ≤ 2147483647) {l l' : List (Int × Int)} (hl : Moderate l)
    (e : sweep was is l = .ok l') : Moderate l' := by
  induction l generalizing l' with
  | nil => cases e; exact hl
  | cons p l ih =>
    have hp := hl p (by simp)
    have hl2 : Moderate l := fun q hq => hl q (by simp [hq])
    rw [sweep] at e
    split at e
    · split at e
      · cases e
      · obtain ⟨l1, e1, e⟩ := Res.bind_eq_ok.1 e
        cases e
        intro q hq
        rcases List.mem_cons.1 hq with rfl | hq
        · exact ⟨hp.1, hp.2.1, h⟩
        · exact ih hl2 e1 q hq
    · obtain ⟨l1, e1, e⟩ := Res.bind_eq_ok.1 e
      cases e
      intro q hq
      rcases List.mem_cons.1 hq with rfl | hq
      · exact hp
      · exact ih hl2 e1 q hq

theorem refreshBN_moderate {n : Nat} {B A B' A' : List (Int × Int)} (hB : Moderate B) (hA : Moderate A)
    (e : refreshBN n B A = .ok (B', A')) : Moderate B' ∧ Moderate A' := by
  induction n generalizing B A B' A' with
  | zero =>
    cases B with
    | nil => cases e; exact ⟨hB, hA⟩
    | cons p B => cases e
  | succ n ih =>
    cases B with
    | nil => cases e; exact ⟨hB, hA⟩
    | cons p B =>
      have hp := hB p (by simp)
      rw [refreshBN] at e
      obtain ⟨B1, e1, e⟩ := Res.bind_eq_ok.1 e
      obtain ⟨A1, e2, e⟩ := Res.bind_eq_ok.1 e
      obtain ⟨⟨B2, A2⟩, e3, e⟩ := Res.bind_eq_ok.1 e
      cases e
      have h1 := sweep_moderate hp.2.2 (fun q hq => hB q (by simp [hq])) e1
      have h2 := sweep_moderate hp.2.2 hA e2
      have h3 := ih h1 h2 e3
      refine ⟨fun q hq => ?_, h3.2⟩
      rcases List.mem_cons.1 hq with rfl | hq
      · exact hp
      · exact h3.1 q hq

theorem refreshTailN_moderate {guard : Int × Int → Bool} {n : Nat} {A A' : List (Int × Int)} (hA : Moderate A)
    (e : refreshTailN guard n A = .ok A') : Moderate A' := by
  induction n generalizing A A' with
  | zero =>
    cases A with
    | nil => cases e; exact hA
    | cons p A => cases e
  | succ n ih =>
    cases A with
    | nil => cases e; exact hA
    | cons p A =>
      have hp := hA p (by simp)
      have hA2 : Moderate A := fun q hq => hA q (by simp [hq])
      rw [refreshTailN] at e
      obtain ⟨A1, e1, e⟩ := Res.bind_eq_ok.1 e
      obtain ⟨A2, e2, e⟩ := Res.bind_eq_ok.1 e
      cases e
      have h1 : Moderate A1 := by
        split at e1
        · exact sweep_moderate hp.2.2 hA2 e1
        · cases e1; exact hA2
      have h2 := ih h1 e2
      intro q hq
      rcases List.mem_cons.1 hq with rfl | hq
      · exact hp
      · exact h2 q hq

theorem refresh2_moderate {B A B' A' : List (Int × Int)} (hB : Moderate B) (hA : Moderate A)
    (e : refreshSwapOrder2 B A = .ok (B', A')) : Moderate B' ∧ Moderate A' := by
  unfold refreshSwapOrder2 at e
  obtain ⟨⟨B1, A1⟩, e1, e⟩ := Res.bind_eq_ok.1 e
  obtain ⟨A2, e2, e⟩ := Res.bind_eq_ok.1 e
  cases e
  have h := refreshBN_moderate hB hA e1
  exact ⟨h.1, refreshTailN_moderate h.2 e2⟩

theorem swapEntry_eq {β : Type} {l : List β} {p : Int × Int} (h : -1 ≤ p.1 ∧ p.1 ≤ 2147483647 ∧ -1 ≤ p.2 ∧ p.2 ≤ 2147483647) :
    swapEntry l p = QC.swapEntry l p := by
  unfold swapEntry QC.swapEntry sub
  split
  · rw [fit_ok (by omega) (by omega)]
    simp only [Res.ok_bind]
    refine bind_eq rfl fun t _ => ?_
    rw [fit_ok (by omega) (by omega)]
    rfl
  · rfl

theorem update1_eq {β : Type} {A : List (Int × Int)} {l : List β} (h : Moderate A) : updateSwapLists1 A l = QC.updateSwapLists1 A l :=
  foldlM_eq (fun _ A => Moderate A) h (fun s x xs h => swapEntry_eq (h x (by simp))) (fun s x xs s' h _ q hq => h q (by simp [hq]))

theorem update2_eq {β : Type} {B A : List (Int × Int)} {l : List β} (hB : Moderate B) (hA : Moderate A) :
    updateSwapLists2 B A l = QC.updateSwapLists2 B A l := by
  unfold updateSwapLists2 QC.updateSwapLists2
  exact bind_eq (update1_eq hB) fun _ _ => update1_eq hA

theorem swapEntry_mem {β : Type} {P : β → Prop} {l l' : List β} {p : Int × Int} (h : ∀ x ∈ l, P x) (e : QC.swapEntry l p = .ok l') : ∀ x ∈ l', P x := by
  have get : ∀ {l : List β} {n : Int} {v : β}, listGet l n = .ok v → v ∈ l := by
    intro l n v e
    unfold listGet at e
    split at e
    · cases e
    · split at e
      · rename_i w hw
        cases e
        exact List.mem_of_getElem? hw
      · cases e
  have set : ∀ {l l' : List β} {n : Int} {v : β}, (∀ x ∈ l, P x) → P v → listSet l n v = .ok l' → ∀ x ∈ l', P x := by
    intro l l' n v h hv e
    unfold listSet at e
    split at e
    · cases e
      intro x hx
      rcases List.mem_or_eq_of_mem_set hx with hx | rfl
      · exact h x hx
      · exact hv
    · cases e
  unfold QC.swapEntry at e
  split at e
  · obtain ⟨t, e1, e⟩ := Res.bind_eq_ok.1 e
    obtain ⟨v, e2, e⟩ := Res.bind_eq_ok.1 e
    obtain ⟨l1, e3, e⟩ := Res.bind_eq_ok.1 e
    exact set (set h (h _ (get e2)) e3) (h _ (get e1)) e
  · cases e; exact h

theorem update1_mem {β : Type} {P : β → Prop} {A : List (Int × Int)} {l l' : List β} (h : ∀ x ∈ l, P x)
    (e : QC.updateSwapLists1 A l = .ok l') : ∀ x ∈ l', P x :=
  foldlM_post (fun l => ∀ x ∈ l, P x) h (fun _ _ _ _ h e => swapEntry_mem h e) e

theorem update2_mem {β : Type} {P : β → Prop} {B A : List (Int × Int)} {l l' : List β} (h : ∀ x ∈ l, P x)
    (e : QC.updateSwapLists2 B A l = .ok l') : ∀ x ∈ l', P x := by
  unfold QC.updateSwapLists2 at e
  obtain ⟨l1, e1, e⟩ := Res.bind_eq_ok.1 e
  exact update1_mem (update1_mem h e1) e

theorem pairUp_eq {k : Int} {l : List Int} (hk : 0 ≤ k) (h : k + l.length ≤ 2147483647) : pairUp k l = .ok (QC.pairUp k l) := by
  induction l generalizing k with
  | nil => rfl
  | cons m l ih =>
    rw [List.length_cons] at h
    push_cast at h
    rw [pairUp, QC.pairUp, fit_ok (by omega) (by omega)]
    simp only [Res.ok_bind]
    rw [ih (by omega) (by omega)]
    rfl

theorem pairUp_moderate {k : Int} {l : List Int} (hk : 0 ≤ k) (h : k + l.length ≤ 2147483647)
    (hl : ∀ x ∈ l, -1 ≤ x ∧ x ≤ 2147483647) : Moderate (QC.pairUp k l) := by
  induction l generalizing k with
  | nil => intro p hp; cases hp
  | cons m l ih =>
    rw [List.length_cons] at h
    push_cast at h
    intro p hp
    rw [QC.pairUp] at hp
    have hm := hl m (by simp)
    rcases List.mem_cons.1 hp with rfl | hp
    · exact ⟨by dsimp only; omega, by dsimp only; omega, hm⟩
    · exact ih (by omega) (by omega) (fun x hx => hl x (by simp [hx])) p hp

theorem pairUp_length {k : Int} {l : List Int} : (QC.pairUp k l).length = l.length := by
  induction l generalizing k with
  | nil => rfl
  | cons m l ih => rw [QC.pairUp, List.length_cons, List.length_cons, ih]

/-! ### splitting and merging -/
section
variable [Zero α]

theorem sum_nonneg' {l : List Int} (h : ∀ x ∈ l, 0 ≤ x) : 0 ≤ l.sum := by
  induction l with
  | nil => simp
  | cons x l ih =>
    rw [List.sum_cons]
    have := h x (by simp)
    have := ih fun y hy => h y (by simp [hy])
    omega

theorem splitColsStep_eq {mat : Mat α} (hm : Within mat) {st : List (Mat α) × Int} {sz : Int} (h0 : 0 ≤ st.2) (hs : st.2 + sz ≤ 46340) :
    splitColsStep mat st sz = QC.splitColsStep mat st sz := by
  unfold splitColsStep QC.splitColsStep
  have l1 := hm.1
  have l2 := hm.2.1
  refine bind_eq (mk2_eq fun a b => le_square a b l2 (by omega)) fun t ht => ?_
  obtain ⟨-, hsz, hd⟩ := mk2_dims ht
  refine bind_eq ?_ fun _ _ => ?_
  · refine loop_eq (Dims mat.rows sz 1) (by omega) (by omega) hd (fun i t i1 i2 hd => ?_) (fun i t t' hd e => ?_)
    · refine loop_eq (Dims mat.rows sz 1) (by omega) (by omega) hd (fun j t j1 j2 hd => ?_) (fun j t t' hd e => ?_)
      · unfold add
        rw [fit_ok (by omega) (by omega)]
        simp only [Res.ok_bind]
        refine bind_eq (getElem2_eq hm.sized i _) fun v _ => ?_
        exact setElem2_eq (hd.sized hm.1 hsz (by omega) (by rw [Int.mul_one]; exact le_square hm.1 hsz l2 (by omega))) v i j
      · obtain ⟨v, -, e⟩ := Res.bind_eq_ok.1 e
        exact hd.set2 e
    · refine forRange_post (Dims mat.rows sz 1) hd (fun j t t' hd e => ?_) e
      obtain ⟨v, -, e⟩ := Res.bind_eq_ok.1 e
      exact hd.set2 e
  · unfold add
    rw [fit_ok (by omega) (by omega)]
    rfl

theorem splitRowsStep_eq {mat : Mat α} (hm : Within mat) {st : List (Mat α) × Int} {sz : Int} (h0 : 0 ≤ st.2) (hs : st.2 + sz ≤ 46340) :
    splitRowsStep mat st sz = QC.splitRowsStep mat st sz := by
  unfold splitRowsStep QC.splitRowsStep
  have l1 := hm.2.2.1
  have l2 := hm.2.2.2.1
  refine bind_eq (mk2_eq fun a b => le_square a b (by omega) l2) fun t ht => ?_
  obtain ⟨hsz, -, hd⟩ := mk2_dims ht
  refine bind_eq ?_ fun _ _ => ?_
  · refine loop_eq (Dims sz mat.cols 1) (by omega) (by omega) hd (fun i t i1 i2 hd => ?_) (fun i t t' hd e => ?_)
    · refine loop_eq (Dims sz mat.cols 1) (by omega) (by omega) hd (fun j t j1 j2 hd => ?_) (fun j t t' hd e => ?_)
      · unfold add
        rw [fit_ok (by omega) (by omega)]
        simp only [Res.ok_bind]
        refine bind_eq (getElem2_eq hm.sized _ i) fun v _ => ?_
        exact setElem2_eq (hd.sized hsz l1 (by omega) (by rw [Int.mul_one]; exact le_square hsz l1 (by omega) l2)) v j i
      · obtain ⟨v, -, e⟩ := Res.bind_eq_ok.1 e
        exact hd.set2 e
    · refine forRange_post (Dims sz mat.cols 1) hd (fun j t t' hd e => ?_) e
      obtain ⟨v, -, e⟩ := Res.bind_eq_ok.1 e
      exact hd.set2 e
  · unfold add
    rw [fit_ok (by omega) (by omega)]
    rfl

theorem splitColsStep_post {mat : Mat α} (hm : Within mat) {st st' : List (Mat α) × Int} {sz : Int} (hs : sz ≤ 46340)
    (e : QC.splitColsStep mat st sz = .ok st') : st'.2 = st.2 + sz ∧ ((∀ m ∈ st.1, Within m) → ∀ m ∈ st'.1, Within m) := by
  unfold QC.splitColsStep at e
  obtain ⟨t, ht, e⟩ := Res.bind_eq_ok.1 e
  obtain ⟨-, hsz, hd⟩ := mk2_dims ht
  obtain ⟨t1, h1, e⟩ := Res.bind_eq_ok.1 e
  cases e
  refine ⟨rfl, fun h m hmem => ?_⟩
  rcases List.mem_append.1 hmem with hx | hx
  · exact h m hx
  · rw [List.mem_singleton.1 hx]
    refine .of (r := mat.rows) (c := sz) ?_ hm.1 hm.2.1 hsz hs
    refine forRange_post (Dims mat.rows sz 1) hd (fun i t t' hd e => ?_) h1
    refine forRange_post (Dims mat.rows sz 1) hd (fun j t t' hd e => ?_) e
    obtain ⟨v, -, e⟩ := Res.bind_eq_ok.1 e
    exact hd.set2 e

theorem splitRowsStep_post {mat : Mat α} (hm : Within mat) {st st' : List (Mat α) × Int} {sz : Int} (hs : sz ≤ 46340)
    (e : QC.splitRowsStep mat st sz = .ok st') : st'.2 = st.2 + sz ∧ ((∀ m ∈ st.1, Within m) → ∀ m ∈ st'.1, Within m) := by
  unfold QC.splitRowsStep at e
  obtain ⟨t, ht, e⟩ := Res.bind_eq_ok.1 e
  obtain ⟨hsz, -, hd⟩ := mk2_dims ht
  obtain ⟨t1, h1, e⟩ := Res.bind_eq_ok.1 e
  cases e
  refine ⟨rfl, fun h m hmem => ?_⟩
  rcases List.mem_append.1 hmem with hx | hx
  · exact h m hx
  · rw [List.mem_singleton.1 hx]
    refine .of (r := sz) (c := mat.cols) ?_ hsz hs hm.2.2.1 hm.2.2.2.1
    refine forRange_post (Dims sz mat.cols 1) hd (fun i t t' hd e => ?_) h1
    refine forRange_post (Dims sz mat.cols 1) hd (fun j t t' hd e => ?_) e
    obtain ⟨v, -, e⟩ := Res.bind_eq_ok.1 e
    exact hd.set2 e

/-- Block sizes that can occur: none negative, together at most 46340. -/
def Sizes (sizes : List Int) : Prop := (∀ x ∈ sizes, 0 ≤ x) ∧ sizes.sum ≤ 46340 ∧ sizes.length < 2147483647

theorem split_eq {mat : Mat α} (hm : Within mat) {sizes : List Int} (hs : Sizes sizes) (dir : Str) :
    splitMatrixIntoList sizes mat dir = QC.splitMatrixIntoList sizes mat dir := by
  obtain ⟨h0, hsum, hlen⟩ := hs
  unfold splitMatrixIntoList QC.splitMatrixIntoList add
  rw [fit_ok (by omega) (by omega)]
  simp only [Res.ok_bind]
  rw [fit_ok (by omega) (by omega)]
  simp only [Res.ok_bind]
  have key : ∀ {f g : List (Mat α) × Int → Int → Res (List (Mat α) × Int)},
      (∀ st sz, 0 ≤ st.2 → st.2 + sz ≤ 46340 → f st sz = g st sz) → (∀ st sz st', sz ≤ 46340 → g st sz = .ok st' → st'.2 = st.2 + sz) →
      sizes.foldlM f ([], 0) = sizes.foldlM g ([], 0) := by
    intro f g hfg hpost
    refine foldlM_eq (fun st l => 0 ≤ st.2 ∧ st.2 + l.sum ≤ 46340 ∧ ∀ x ∈ l, 0 ≤ x) ⟨Int.le_refl _, by simpa using hsum, h0⟩
      (fun st x xs h => ?_) (fun st x xs st' h e => ?_)
    · have := h.2.1
      rw [List.sum_cons] at this
      have := sum_nonneg' fun y hy => h.2.2 y (List.mem_cons_of_mem x hy)
      exact hfg st x h.1 (by omega)
    · have h2 := h.2.1
      rw [List.sum_cons] at h2
      have := sum_nonneg' fun y hy => h.2.2 y (List.mem_cons_of_mem x hy)
      have hx := h.2.2 x (by simp)
      have h1 := h.1
      rw [hpost st x st' (by omega) e]
      exact ⟨by omega, by omega, fun y hy => h.2.2 y (by simp [hy])⟩
  split
  · exact bind_eq (key (fun st sz a b => splitColsStep_eq hm a b) (fun st sz st' a e => (splitColsStep_post hm a e).1)) fun _ _ => rfl
  split
  · exact bind_eq (key (fun st sz a b => splitRowsStep_eq hm a b) (fun st sz st' a e => (splitRowsStep_post hm a e).1)) fun _ _ => rfl
  rfl

theorem split_within {mat : Mat α} (hm : Within mat) {sizes : List Int} (hs : Sizes sizes) {dir : Str} {l : List (Mat α)}
    (e : QC.splitMatrixIntoList sizes mat dir = .ok l) : ∀ m ∈ l, Within m := by
  have hle : ∀ x ∈ sizes, x ≤ 46340 := by
    obtain ⟨h0, hsum, -⟩ := hs
    intro x hx
    obtain ⟨a, b, rfl⟩ := List.append_of_mem hx
    rw [List.sum_append, List.sum_cons] at hsum
    have := sum_nonneg' fun y hy => h0 y (List.mem_append_left _ hy)
    have := sum_nonneg' fun y hy => h0 y (List.mem_append_right _ (List.mem_cons_of_mem x hy))
    omega
  unfold QC.splitMatrixIntoList at e
  split at e
  · obtain ⟨st, e1, e⟩ := Res.bind_eq_ok.1 e
    cases e
    exact foldlM_post (fun st => ∀ m ∈ st.1, Within m) (by simp) (fun st x st' hx h e => (splitColsStep_post hm (hle x hx) e).2 h) e1
  split at e
  · obtain ⟨st, e1, e⟩ := Res.bind_eq_ok.1 e
    cases e
    exact foldlM_post (fun st => ∀ m ∈ st.1, Within m) (by simp) (fun st x st' hx h e => (splitRowsStep_post hm (hle x hx) e).2 h) e1
  cases e

theorem mergeColsStep_eq {rows cols : Int} (hr : 1 ≤ rows ∧ rows ≤ 46340) (hc : 1 ≤ cols ∧ cols ≤ 46340) {st : Mat α × Int}
    (hst : Dims rows cols 1 st.1) (h0 : 0 ≤ st.2) {m : Mat α} (hm : Within m) :
    mergeColsStep rows cols st m = QC.mergeColsStep rows cols st m := by
  unfold mergeColsStep QC.mergeColsStep
  split
  · rfl
  obtain ⟨l1, l2, l3, l4, -⟩ := id hm
  have inner : ∀ (full full' : Mat α) (i row : Int), Dims rows cols 1 full →
      (forRange 1 m.cols full fun full j => do
          let v ← m.getElem2 i j
          full.setElem2 v row (j + st.2)) = .ok full' → Dims rows cols 1 full' := fun full full' i row hd e => by
    refine forRange_post (Dims rows cols 1) hd (fun j t t' hd e => ?_) e
    obtain ⟨v, -, e⟩ := Res.bind_eq_ok.1 e
    exact hd.set2 e
  refine bind_eq ?_ fun p _ => ?_
  · refine loop_eq (fun p => Dims rows cols 1 p.1 ∧ 1 ≤ p.2) (by omega) (by omega) ⟨hst, by simp⟩ (fun i p i1 i2 hp => ?_) (fun i p p' hp e => ?_)
    · obtain ⟨full, row⟩ := p
      dsimp only at hp ⊢
      split
      · rfl
      refine bind_eq ?_ fun f _ => ?_
      · refine loop_eq (Dims rows cols 1) (by omega) (by omega) hp.1 (fun j t j1 j2 hd => ?_) (fun j t t' hd e => ?_)
        · refine bind_eq (getElem2_eq hm.sized i j) fun v _ => ?_
          unfold add
          rw [fit_ok (by omega) (by omega)]
          simp only [Res.ok_bind]
          exact setElem2_eq (hd.sized hr.1 hc.1 (by omega) (by rw [Int.mul_one]; exact le_square hr.1 hc.1 hr.2 hc.2)) v _ _
        · obtain ⟨v, -, e⟩ := Res.bind_eq_ok.1 e
          exact hd.set2 e
      · unfold add
        rw [fit_ok (by omega) (by omega)]
        rfl
    · obtain ⟨full, row⟩ := p
      dsimp only at hp e
      split at e
      · cases e
      obtain ⟨f, e1, e⟩ := Res.bind_eq_ok.1 e
      cases e
      exact ⟨inner _ _ _ _ hp.1 e1, by dsimp only; omega⟩
  · unfold add
    rw [fit_ok (by omega) (by omega)]
    rfl

omit [Zero α] in
theorem mergeColsStep_post {rows cols : Int} {st st' : Mat α × Int} (hst : Dims rows cols 1 st.1) (h0 : 0 ≤ st.2) {m : Mat α} (hm : 0 ≤ m.cols)
    (e : QC.mergeColsStep rows cols st m = .ok st') : Dims rows cols 1 st'.1 ∧ 0 ≤ st'.2 := by
  unfold QC.mergeColsStep at e
  split at e
  · cases e
  obtain ⟨p, e1, e⟩ := Res.bind_eq_ok.1 e
  obtain ⟨full, row⟩ := p
  cases e
  refine ⟨?_, by dsimp only; omega⟩
  refine forRange_post (fun p => Dims rows cols 1 p.1) hst (fun i p p' hp e => ?_) e1
  obtain ⟨full, row⟩ := p
  dsimp only at hp e
  split at e
  · cases e
  obtain ⟨f, e1, e⟩ := Res.bind_eq_ok.1 e
  cases e
  refine forRange_post (Dims rows cols 1) hp (fun j t t' hd e => ?_) e1
  obtain ⟨v, -, e⟩ := Res.bind_eq_ok.1 e
  exact hd.set2 e

theorem mergeRowsStep_eq {rows cols : Int} (hr : 1 ≤ rows ∧ rows ≤ 46340) (hc : 1 ≤ cols ∧ cols ≤ 46340) {st : Mat α × Int}
    (hst : Dims rows cols 1 st.1) (h0 : 0 ≤ st.2) {m : Mat α} (hm : Within m) :
    mergeRowsStep rows cols st m = QC.mergeRowsStep rows cols st m := by
  unfold mergeRowsStep QC.mergeRowsStep
  split
  · rfl
  obtain ⟨l1, l2, l3, l4, -⟩ := id hm
  refine bind_eq ?_ fun p _ => ?_
  · refine loop_eq (fun p => Dims rows cols 1 p.1 ∧ 1 ≤ p.2) (by omega) (by omega) ⟨hst, by simp⟩ (fun i p i1 i2 hp => ?_) (fun i p p' hp e => ?_)
    · obtain ⟨full, row⟩ := p
      dsimp only at hp ⊢
      split
      · rfl
      refine bind_eq ?_ fun f _ => ?_
      · refine loop_eq (Dims rows cols 1) (by omega) (by omega) hp.1 (fun j t j1 j2 hd => ?_) (fun j t t' hd e => ?_)
        · refine bind_eq (getElem2_eq hm.sized j i) fun v _ => ?_
          unfold add
          rw [fit_ok (by omega) (by omega)]
          simp only [Res.ok_bind]
          exact setElem2_eq (hd.sized hr.1 hc.1 (by omega) (by rw [Int.mul_one]; exact le_square hr.1 hc.1 hr.2 hc.2)) v _ _
        · obtain ⟨v, -, e⟩ := Res.bind_eq_ok.1 e
          exact hd.set2 e
      · unfold add
        rw [fit_ok (by omega) (by omega)]
        rfl
    · obtain ⟨full, row⟩ := p
      dsimp only at hp e
      split at e
      · cases e
      obtain ⟨f, e1, e⟩ := Res.bind_eq_ok.1 e
      cases e
      refine ⟨?_, by dsimp only; omega⟩
      refine forRange_post (Dims rows cols 1) hp.1 (fun j t t' hd e => ?_) e1
      obtain ⟨v, -, e⟩ := Res.bind_eq_ok.1 e
      exact hd.set2 e
  · unfold add
    rw [fit_ok (by omega) (by omega)]
    rfl

omit [Zero α] in
theorem mergeRowsStep_post {rows cols : Int} {st st' : Mat α × Int} (hst : Dims rows cols 1 st.1) (h0 : 0 ≤ st.2) {m : Mat α} (hm : 0 ≤ m.rows)
    (e : QC.mergeRowsStep rows cols st m = .ok st') : Dims rows cols 1 st'.1 ∧ 0 ≤ st'.2 := by
  unfold QC.mergeRowsStep at e
  split at e
  · cases e
  obtain ⟨p, e1, e⟩ := Res.bind_eq_ok.1 e
  obtain ⟨full, row⟩ := p
  cases e
  refine ⟨?_, by dsimp only; omega⟩
  refine forRange_post (fun p => Dims rows cols 1 p.1) hst (fun i p p' hp e => ?_) e1
  obtain ⟨full, row⟩ := p
  dsimp only at hp e
  split at e
  · cases e
  obtain ⟨f, e1, e⟩ := Res.bind_eq_ok.1 e
  cases e
  refine forRange_post (Dims rows cols 1) hp (fun j t t' hd e => ?_) e1
  obtain ⟨v, -, e⟩ := Res.bind_eq_ok.1 e
  exact hd.set2 e

theorem merge_eq {l : List (Mat α)} (hl : ∀ m ∈ l, Within m) {rows cols : Int} (hr : rows ≤ 46340) (hc : cols ≤ 46340) (dir : Str) :
    mergeListOfMatrices l rows cols dir = QC.mergeListOfMatrices l rows cols dir := by
  unfold mergeListOfMatrices QC.mergeListOfMatrices
  refine bind_eq (mk2_eq fun a b => le_square a b hr hc) fun t ht => ?_
  obtain ⟨r1, c1, hd⟩ := mk2_dims ht
  split
  · refine bind_eq ?_ fun _ _ => rfl
    refine foldlM_eq (fun st l => (Dims rows cols 1 st.1 ∧ 0 ≤ st.2) ∧ ∀ m ∈ l, Within m) ⟨⟨hd, Int.le_refl 0⟩, hl⟩
      (fun st x xs h => ?_) (fun st x xs st' h e => ?_)
    · exact mergeColsStep_eq ⟨r1, hr⟩ ⟨c1, hc⟩ h.1.1 h.1.2 (h.2 x (by simp))
    · have hx := h.2 x (by simp)
      exact ⟨mergeColsStep_post h.1.1 h.1.2 (by have := hx.2.2.1; omega) e, fun y hy => h.2 y (by simp [hy])⟩
  split
  · refine bind_eq ?_ fun _ _ => rfl
    refine foldlM_eq (fun st l => (Dims rows cols 1 st.1 ∧ 0 ≤ st.2) ∧ ∀ m ∈ l, Within m) ⟨⟨hd, Int.le_refl 0⟩, hl⟩
      (fun st x xs h => ?_) (fun st x xs st' h e => ?_)
    · exact mergeRowsStep_eq ⟨r1, hr⟩ ⟨c1, hc⟩ h.1.1 h.1.2 (h.2 x (by simp))
    · have hx := h.2 x (by simp)
      exact ⟨mergeRowsStep_post h.1.1 h.1.2 (by have := hx.1; omega) e, fun y hy => h.2 y (by simp [hy])⟩
  rfl

theorem merge_within {l : List (Mat α)} (hl : ∀ m ∈ l, Within m) {rows cols : Int} (hr : rows ≤ 46340) (hc : cols ≤ 46340) {dir : Str} {t : Mat α}
    (e : QC.mergeListOfMatrices l rows cols dir = .ok t) : Within t ∧ Dims rows cols 1 t := by
  unfold QC.mergeListOfMatrices at e
  obtain ⟨t0, ht, e⟩ := Res.bind_eq_ok.1 e
  obtain ⟨r1, c1, hd⟩ := mk2_dims ht
  suffices hs : Dims rows cols 1 t from ⟨.of hs r1 hr c1 hc, hs⟩
  split at e
  · obtain ⟨st, e1, e⟩ := Res.bind_eq_ok.1 e
    cases e
    refine (foldlM_post (fun st => Dims rows cols 1 st.1 ∧ 0 ≤ st.2) ⟨hd, Int.le_refl 0⟩ (fun st x st' hx h e => ?_) e1).1
    exact mergeColsStep_post h.1 h.2 (by have := (hl x hx).2.2.1; omega) e
  split at e
  · obtain ⟨st, e1, e⟩ := Res.bind_eq_ok.1 e
    cases e
    refine (foldlM_post (fun st => Dims rows cols 1 st.1 ∧ 0 ≤ st.2) ⟨hd, Int.le_refl 0⟩ (fun st x st' hx h e => ?_) e1).1
    exact mergeRowsStep_post h.1 h.2 (by have := (hl x hx).1; omega) e
  cases e

/-! ### unscrambling -/

/-- A list of matches, as `matchCol` gives them: few, and each at least -1. -/
def Matches (l : List Int) : Prop := l.length ≤ 1073741823 ∧ ∀ x ∈ l, -1 ≤ x ∧ x ≤ 2147483647

theorem refresh1_moderate {A A' : List (Int × Int)} (hA : Moderate A) (e : refreshSwapOrder1 A = .ok A') : Moderate A' :=
  refreshTailN_moderate hA e

/-- The part shared by `unscramble_Coef` and the two halves of `unscramble_S` (one list of matches). -/
theorem regroup1_eq {matches_ basis : List Int} (hmt : Matches matches_) (hb : Sizes basis) {m : Mat α} (hm : Within m) (dir : Str) :
    (do
      let l ← splitMatrixIntoList basis m dir
      let monB ← pairUp 0 matches_
      let monB ← refreshSwapOrder1 monB
      let l ← updateSwapLists1 monB l
      mergeListOfMatrices l m.rows m.cols dir) =
    (do
      let l ← QC.splitMatrixIntoList basis m dir
      let monB ← refreshSwapOrder1 (QC.pairUp 0 matches_)
      let l ← QC.updateSwapLists1 monB l
      QC.mergeListOfMatrices l m.rows m.cols dir) := by
  have hlen := hmt.1
  refine bind_eq (split_eq hm hb dir) fun l el => ?_
  rw [pairUp_eq (by omega) (by omega)]
  simp only [Res.ok_bind]
  refine bind_eq rfl fun B eB => ?_
  have hB := refresh1_moderate (pairUp_moderate (by omega) (by omega) hmt.2) eB
  refine bind_eq (update1_eq hB) fun l' el' => ?_
  exact merge_eq (update1_mem (split_within hm hb el) el') hm.2.1 hm.2.2.2.1 dir

theorem regroup1_within {matches_ basis : List Int} (hb : Sizes basis) {m t : Mat α} (hm : Within m) {dir : Str}
    (e : (do
      let l ← QC.splitMatrixIntoList basis m dir
      let monB ← refreshSwapOrder1 (QC.pairUp 0 matches_)
      let l ← QC.updateSwapLists1 monB l
      QC.mergeListOfMatrices l m.rows m.cols dir) = .ok t) : Within t ∧ Dims m.rows m.cols 1 t := by
  obtain ⟨l, el, e⟩ := Res.bind_eq_ok.1 e
  obtain ⟨B, eB, e⟩ := Res.bind_eq_ok.1 e
  obtain ⟨l', el', e⟩ := Res.bind_eq_ok.1 e
  exact merge_within (update1_mem (split_within hm hb el) el') hm.2.1 hm.2.2.2.1 e

/-- The same with two lists of matches. -/
theorem regroup2_eq {matchA matchB basis : List Int} (hmA : Matches matchA) (hmB : Matches matchB) (hb : Sizes basis) {m : Mat α} (hm : Within m)
    (dir : Str) :
    (do
      let l ← splitMatrixIntoList basis m dir
      let monA ← pairUp 0 matchA
      let monB ← pairUp monA.length matchB
      let (monB, monA) ← refreshSwapOrder2 monB monA
      let l ← updateSwapLists2 monB monA l
      mergeListOfMatrices l m.rows m.cols dir) =
    (do
      let l ← QC.splitMatrixIntoList basis m dir
      let monA := QC.pairUp 0 matchA
      let monB := QC.pairUp monA.length matchB
      let (monB, monA) ← refreshSwapOrder2 monB monA
      let l ← QC.updateSwapLists2 monB monA l
      QC.mergeListOfMatrices l m.rows m.cols dir) := by
  have h1 := hmA.1
  have h2 := hmB.1
  refine bind_eq (split_eq hm hb dir) fun l el => ?_
  rw [pairUp_eq (by omega) (by omega)]
  simp only [Res.ok_bind]
  have hp : ((QC.pairUp 0 matchA).length : Int) + matchB.length ≤ 2147483647 := by rw [pairUp_length]; omega
  rw [pairUp_eq (by omega) hp]
  simp only [Res.ok_bind]
  refine bind_eq rfl fun p ep => ?_
  obtain ⟨B, A⟩ := p
  obtain ⟨hB, hA⟩ := refresh2_moderate (pairUp_moderate (by omega) hp hmB.2) (pairUp_moderate (by omega) (by omega) hmA.2) ep
  refine bind_eq (update2_eq hB hA) fun l' el' => ?_
  exact merge_eq (update2_mem (split_within hm hb el) el') hm.2.1 hm.2.2.2.1 dir

theorem regroup2_within {matchA matchB basis : List Int} (hb : Sizes basis) {m t : Mat α} (hm : Within m) {dir : Str}
    (e : (do
      let l ← QC.splitMatrixIntoList basis m dir
      let monA := QC.pairUp 0 matchA
      let monB := QC.pairUp monA.length matchB
      let (monB, monA) ← refreshSwapOrder2 monB monA
      let l ← QC.updateSwapLists2 monB monA l
      QC.mergeListOfMatrices l m.rows m.cols dir) = .ok t) : Within t ∧ Dims m.rows m.cols 1 t := by
  obtain ⟨l, el, e⟩ := Res.bind_eq_ok.1 e
  obtain ⟨⟨B, A⟩, eB, e⟩ := Res.bind_eq_ok.1 e
  obtain ⟨l', el', e⟩ := Res.bind_eq_ok.1 e
  exact merge_within (update2_mem (split_within hm hb el) el') hm.2.1 hm.2.2.2.1 e

theorem unscrambleCoef1_eq {mt basis : List Int} (hmt : Matches mt) (hb : Sizes basis) {m : Mat α} (hm : Within m) :
    unscrambleCoef1 mt basis m = QC.unscrambleCoef1 mt basis m := regroup1_eq hmt hb hm _

theorem unscrambleCoef2_eq {mtA mtB basis : List Int} (hA : Matches mtA) (hB : Matches mtB) (hb : Sizes basis) {m : Mat α} (hm : Within m) :
    unscrambleCoef2 mtA mtB basis m = QC.unscrambleCoef2 mtA mtB basis m := regroup2_eq hA hB hb hm _

theorem unscrambleS1_eq {mt basis : List Int} (hmt : Matches mt) (hb : Sizes basis) {m : Mat α} (hm : Within m) :
    unscrambleS1 mt basis m = QC.unscrambleS1 mt basis m := by
  unfold unscrambleS1 QC.unscrambleS1
  refine bind_eq (regroup1_eq hmt hb hm _) fun t et => ?_
  exact regroup1_eq hmt hb (regroup1_within hb hm et).1 _

theorem unscrambleS2_eq {mtA mtB basis : List Int} (hA : Matches mtA) (hB : Matches mtB) (hb : Sizes basis) {m : Mat α} (hm : Within m) :
    unscrambleS2 mtA mtB basis m = QC.unscrambleS2 mtA mtB basis m := by
  unfold unscrambleS2 QC.unscrambleS2
  refine bind_eq (regroup2_eq hA hB hb hm _) fun t et => ?_
  exact regroup2_eq hA hB hb (regroup2_within hb hm et).1 _

theorem unscrambleS1_within {mt basis : List Int} (hb : Sizes basis) {m t : Mat α} (hm : Within m) (e : QC.unscrambleS1 mt basis m = .ok t) :
    Within t ∧ Dims m.rows m.cols 1 t := by
  unfold QC.unscrambleS1 at e
  obtain ⟨t1, e1, e⟩ := Res.bind_eq_ok.1 e
  have h1 := regroup1_within hb hm e1
  have h2 := regroup1_within hb h1.1 e
  rw [h1.2.1, h1.2.2.1] at h2
  exact h2

theorem unscrambleS2_within {mtA mtB basis : List Int} (hb : Sizes basis) {m t : Mat α} (hm : Within m) (e : QC.unscrambleS2 mtA mtB basis m = .ok t) :
    Within t ∧ Dims m.rows m.cols 1 t := by
  unfold QC.unscrambleS2 at e
  obtain ⟨t1, e1, e⟩ := Res.bind_eq_ok.1 e
  have h1 := regroup2_within hb hm e1
  have h2 := regroup2_within hb h1.1 e
  rw [h1.2.1, h1.2.2.1] at h2
  exact h2

end
end Verif.Ints
