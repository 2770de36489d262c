import Verif.QCBlocks
import Verif.Spec.QC
/-
Unscrambling: composition of splitting, scheduling, swapping and merging.
-/
namespace Verif.QC
open Mat
variable {α : Type}

/-! ### pairing -/

theorem pairUp_snd (k : Int) (ms : List Int) : (pairUp k ms).map Prod.snd = ms := by
  induction ms generalizing k with
  | nil => rfl
  | cons m ms ih => simp [pairUp, ih]

theorem pairUp_length (k : Int) (ms : List Int) : (pairUp k ms).length = ms.length := by
  induction ms generalizing k with
  | nil => rfl
  | cons m ms ih => simp [pairUp, ih]

theorem pairUp_getElem? (k : Int) (ms : List Int) (i : Nat) :
    (pairUp k ms)[i]? = (ms[i]?).map (fun m => (k + 1 + i, m)) := by
  induction ms generalizing k i with
  | nil => simp [pairUp]
  | cons m ms ih =>
    cases i with
    | zero => simp [pairUp]
    | succ i =>
      simp only [pairUp, List.getElem?_cons_succ, ih]
      congr 1
      funext m
      simp; omega

theorem mem_pairUp {k : Int} {ms : List Int} {p : Int × Int} :
    p ∈ pairUp k ms ↔ ∃ i : Nat, ms[i]? = some p.2 ∧ p.1 = k + 1 + i := by
  rw [List.mem_iff_getElem?]
  constructor
  · rintro ⟨i, hi⟩
    rw [pairUp_getElem?] at hi
    cases h : ms[i]? with
    | none => rw [h] at hi; simp at hi
    | some m => rw [h] at hi; simp at hi; subst hi; exact ⟨i, h, rfl⟩
  · rintro ⟨i, h1, h2⟩
    refine ⟨i, ?_⟩
    rw [pairUp_getElem?, h1]
    simp [← h2]

theorem pairUp_fst_nodup (k : Int) (ms : List Int) : ((pairUp k ms).map Prod.fst).Nodup := by
  induction ms generalizing k with
  | nil => exact List.nodup_nil
  | cons m ms ih =>
    simp only [pairUp, List.map_cons, List.nodup_cons]
    refine ⟨?_, ih _⟩
    intro h
    obtain ⟨p, hp, e⟩ := List.mem_map.1 h
    obtain ⟨i, -, h2⟩ := mem_pairUp.1 hp
    omega

theorem pairUp_append (k : Int) (A B : List Int) : pairUp k (A ++ B) = pairUp k A ++ pairUp (k + A.length) B := by
  induction A generalizing k with
  | nil => simp [pairUp]
  | cons a A ih =>
    simp only [List.cons_append, pairUp, ih, List.length_cons]
    congr 3
    omega

/-! ### swapping commutes with map -/

theorem listGet_map {β γ : Type} (g : β → γ) (l : List β) (n : Int) :
    listGet (l.map g) n = (listGet l n >>= fun v => .ok (g v)) := by
  unfold listGet
  split
  · rfl
  · rw [List.getElem?_map]
    cases l[n.toNat]? <;> rfl

theorem listSet_map {β γ : Type} (g : β → γ) (l : List β) (n : Int) (v : β) :
    listSet (l.map g) n (g v) = (listSet l n v >>= fun l => .ok (l.map g)) := by
  unfold listSet
  rw [List.length_map]
  split
  · simp [List.map_set]
  · rfl

theorem swapEntry_map {β γ : Type} (g : β → γ) (l : List β) (p : Int × Int) :
    swapEntry (l.map g) p = (swapEntry l p >>= fun l => .ok (l.map g)) := by
  unfold swapEntry
  split
  · rw [listGet_map, listGet_map]
    cases listGet l (p.1 - 1) with
    | ok t =>
      simp only [Res.ok_bind]
      cases listGet l (p.2 - 1) with
      | ok v =>
        simp only [Res.ok_bind, listSet_map]
        cases listSet l (p.1 - 1) v with
        | ok l1 => simp only [Res.ok_bind, listSet_map]
        | _ => rfl
      | _ => rfl
    | _ => rfl
  · rfl

theorem updateSwapLists1_map {β γ : Type} (g : β → γ) (L : List (Int × Int)) (l : List β) :
    updateSwapLists1 L (l.map g) = (updateSwapLists1 L l >>= fun l => .ok (l.map g)) := by
  unfold updateSwapLists1
  induction L generalizing l with
  | nil => rfl
  | cons p L ih =>
    simp only [List.foldlM_cons, swapEntry_map]
    cases swapEntry l p with
    | ok l1 => simp only [Res.ok_bind, ih]
    | _ => rfl

/-! ### blocks of columns -/

theorem sum_take_succ (basis : List Int) (n : Nat) (h : n < basis.length) :
    (basis.take (n + 1)).sum = (basis.take n).sum + basis[n] := by
  rw [List.take_succ_eq_append_getElem h, List.sum_append]
  simp

theorem sum_take_nonneg {basis : List Int} (hb : ∀ b ∈ basis, 1 ≤ b) (n : Nat) : 0 ≤ (basis.take n).sum := by
  induction n with
  | zero => simp
  | succ n ih =>
    by_cases h : n < basis.length
    · rw [sum_take_succ _ _ h]
      have := hb _ (List.getElem_mem h)
      omega
    · rw [List.take_of_length_le (by omega)] at ih ⊢
      exact ih

theorem irange_append {a b c : Int} (h1 : a ≤ b + 1) (h2 : b ≤ c) : irange a b ++ irange (b + 1) c = irange a c := by
  apply List.ext_getElem
  · simp; omega
  · intro n h3 h4
    rw [List.getElem_append]
    split
    · rw [getElem_irange, getElem_irange]
    · rename_i h5
      rw [getElem_irange, getElem_irange]
      simp at h5 ⊢
      omega

/-- The blocks of all atoms. -/
def atomBlocks (basis : List Int) : List (List Int) := (List.range basis.length).map (fun (k : Nat) => atomCols basis ((k : Int) + 1))

theorem atomBlocks_length (basis : List Int) : (atomBlocks basis).length = basis.length := by simp [atomBlocks]

theorem atomCols_length {basis : List Int} (hb : ∀ b ∈ basis, 1 ≤ b) {n : Nat} (h : n < basis.length) :
    ((atomCols basis ((n : Int) + 1)).length : Int) = basis[n] := by
  unfold atomCols
  have e1 : ((n : Int) + 1 - 1).toNat = n := by omega
  have e2 : ((n : Int) + 1).toNat = n + 1 := by omega
  rw [e1, e2, sum_take_succ _ _ h, length_irange]
  have := hb _ (List.getElem_mem h)
  omega

theorem atomBlocks_sizes {basis : List Int} (hb : ∀ b ∈ basis, 1 ≤ b) :
    (atomBlocks basis).map (fun b => (b.length : Int)) = basis := by
  apply List.ext_getElem
  · simp [atomBlocks]
  · intro n h1 h2
    simp only [atomBlocks, List.getElem_map, List.getElem_range]
    exact atomCols_length hb h2

theorem atomBlocks_ne_nil {basis : List Int} (hb : ∀ b ∈ basis, 1 ≤ b) : ∀ b ∈ atomBlocks basis, b ≠ [] := by
  intro b h
  unfold atomBlocks at h
  obtain ⟨n, hn, rfl⟩ := List.mem_map.1 h
  have hn := List.mem_range.1 hn
  have h1 := atomCols_length hb hn
  have h2 := hb _ (List.getElem_mem hn)
  intro e
  rw [e] at h1
  simp at h1
  omega

theorem atomBlocks_flatten {basis : List Int} (hb : ∀ b ∈ basis, 1 ≤ b) : (atomBlocks basis).flatten = irange 1 basis.sum := by
  have key : ∀ n, n ≤ basis.length →
      ((List.range n).map (fun (k : Nat) => atomCols basis ((k : Int) + 1))).flatten = irange 1 (basis.take n).sum := by
    intro n
    induction n with
    | zero => intro _; simp [irange]
    | succ n ih =>
      intro h
      rw [List.range_succ, List.map_append, List.flatten_append, ih (by omega)]
      simp only [List.map_cons, List.map_nil, List.flatten_cons, List.flatten_nil, List.append_nil]
      unfold atomCols
      have e1 : ((n : Int) + 1 - 1).toNat = n := by omega
      have e2 : ((n : Int) + 1).toNat = n + 1 := by omega
      rw [e1, e2]
      apply irange_append
      · have := sum_take_nonneg hb n; omega
      · rw [sum_take_succ _ _ (by omega)]
        have := hb _ (List.getElem_mem (by omega : n < basis.length))
        omega
  have := key basis.length (Nat.le_refl _)
  rw [List.take_length] at this
  exact this

theorem atomBlocks_getElem? (basis : List Int) (t : Int) (h1 : 1 ≤ t) (h2 : t ≤ basis.length) :
    (atomBlocks basis)[(t - 1).toNat]? = some (atomCols basis t) := by
  unfold atomBlocks
  rw [List.getElem?_map, List.getElem?_range (by omega)]
  simp only [Option.map_some]
  congr 2; omega

theorem isMat_colsAre {m : Mat α} {r c : Int} {f : Int → Int → Int → α} (h : IsMat m r c 1 f) (hc : 0 ≤ c) :
    ColsAre m r (fun i j => f i j 1) (irange 1 c) := by
  unfold ColsAre
  have hl : ((irange 1 c).length : Int) = c := by simp; omega
  rw [hl]
  refine h.congr (fun i j k hi => ?_)
  unfold InR at hi
  have hk : k = 1 := by omega
  rw [List.getD_eq_getElem?_getD, List.getElem?_eq_getElem (by simp; omega), getElem_irange]
  simp only [Option.getD_some, hk]
  congr 1; omega

theorem isMat_rowsAre {m : Mat α} {r c : Int} {f : Int → Int → Int → α} (h : IsMat m r c 1 f) (hr : 0 ≤ r) :
    RowsAre m c (fun i j => f i j 1) (irange 1 r) := by
  unfold RowsAre
  have hl : ((irange 1 r).length : Int) = r := by simp; omega
  rw [hl]
  refine h.congr (fun i j k hi => ?_)
  unfold InR at hi
  have hk : k = 1 := by omega
  rw [List.getD_eq_getElem?_getD, List.getElem?_eq_getElem (by simp; omega), getElem_irange]
  simp only [Option.getD_some, hk]
  congr 1; omega

/-! ### scheduling and swapping related lists -/

theorem length_le_of_injective {n : Nat} {l : List Int} (h : InjectiveMatch n l) : l.length ≤ n := by
  have hsub : l ⊆ irange 1 n := fun t ht => mem_irange.2 (h.2 t ht)
  have hp : ∀ (l k : List Int), l.Nodup → l ⊆ k → l.length ≤ k.length := by
    intro l
    induction l with
    | nil => intro k _ _; simp
    | cons a l ih =>
      intro k hn hs
      have ha := hs (List.mem_cons_self)
      have := ih (k.erase a) (List.nodup_cons.1 hn).2 (fun x hx => by
        have hne : x ≠ a := fun e => (List.nodup_cons.1 hn).1 (e ▸ hx)
        exact (List.mem_erase_of_ne hne).2 (hs (List.mem_cons_of_mem _ hx)))
      rw [List.length_erase_of_mem ha] at this
      have hpos := List.length_pos_of_mem ha
      simp only [List.length_cons]
      omega
  have := hp l _ h.1 hsub
  simp at this
  omega

theorem exec_list {β : Type} {x : List β} {A B : List Int} (h : InjectiveMatch x.length (A ++ B)) :
    ∃ B' A' y, refreshSwapOrder2 (pairUp A.length B) (pairUp 0 A) = .ok (B', A') ∧
      updateSwapLists2 B' A' x = .ok y ∧ y.length = x.length ∧ y.Perm x ∧
      ∀ (i : Nat) (t : Int), (A ++ B)[i]? = some t → y[i]? = x[(t - 1).toNat]? := by
  have hlen := length_le_of_injective h
  have hperm : (pairUp A.length B ++ pairUp 0 A).Perm (pairUp 0 (A ++ B)) := by
    rw [pairUp_append, Int.zero_add]
    exact List.perm_append_comm
  have hd : Distinct (pairUp A.length B ++ pairUp 0 A) := by
    unfold Distinct
    have := (hperm.map Prod.snd).nodup_iff
    rw [this, pairUp_snd]
    exact h.1
  obtain ⟨B', A', e1, hs⟩ := refreshSwapOrder2_ok hd
  have hf : ((pairUp A.length B ++ pairUp 0 A).map Prod.fst).Nodup := by
    rw [(hperm.map Prod.fst).nodup_iff]
    exact pairUp_fst_nodup _ _
  obtain ⟨y, e2, hl, hp, hy, -⟩ := schedule_exec _ _ rfl x hf hd
    (by
      intro p hp
      obtain ⟨i, h1, h2⟩ := mem_pairUp.1 (hperm.mem_iff.1 hp)
      have := (List.getElem?_eq_some_iff.1 h1).1
      omega)
    (by
      intro p hp
      obtain ⟨i, h1, h2⟩ := mem_pairUp.1 (hperm.mem_iff.1 hp)
      exact h.2 _ (List.mem_of_getElem? h1))
  refine ⟨B', A', y, e1, ?_, hl, hp, ?_⟩
  · rw [updateSwapLists_append, hs]; exact e2
  · intro i t ht
    have := hy ((i : Int) + 1, t) (hperm.mem_iff.2 (mem_pairUp.2 ⟨i, ht, by simp; omega⟩))
    simpa using this

theorem exec_list1 {β : Type} {x : List β} {A : List Int} (h : InjectiveMatch x.length A) :
    ∃ A' y, refreshSwapOrder1 (pairUp 0 A) = .ok A' ∧
      updateSwapLists1 A' x = .ok y ∧ y.length = x.length ∧ y.Perm x ∧
      ∀ (i : Nat) (t : Int), A[i]? = some t → y[i]? = x[(t - 1).toNat]? := by
  have hlen := length_le_of_injective h
  have hd : Distinct (pairUp 0 A) := by
    unfold Distinct
    rw [pairUp_snd]
    exact h.1
  obtain ⟨y, e2, hl, hp, hy, -⟩ := schedule_exec _ _ rfl x (pairUp_fst_nodup 0 A) hd
    (by
      intro p hp
      obtain ⟨i, h1, h2⟩ := mem_pairUp.1 hp
      have := (List.getElem?_eq_some_iff.1 h1).1
      omega)
    (by
      intro p hp
      obtain ⟨i, h1, h2⟩ := mem_pairUp.1 hp
      exact h.2 _ (List.mem_of_getElem? h1))
  refine ⟨_, y, refreshSwapOrder1_ok hd, e2, hl, hp, ?_⟩
  intro i t ht
  have := hy ((i : Int) + 1, t) (mem_pairUp.2 ⟨i, ht, by simp; omega⟩)
  simpa using this

theorem zip_map_fst {β γ : Type} (l : List β) (k : List γ) (h : l.length = k.length) : (l.zip k).map Prod.fst = l :=
  List.map_fst_zip (by omega)

theorem Rel2.map_right {β γ δ : Type} {R : β → γ → Prop} {g : δ → γ} {l : List β} {ks : List δ} :
    Rel2 R l (ks.map g) ↔ Rel2 (fun b k => R b (g k)) l ks := by
  induction ks generalizing l with
  | nil =>
    constructor
    · intro h; cases h; exact .nil
    · intro h; cases h; exact .nil
  | cons k ks ih =>
    constructor
    · intro h; cases h with | cons h hs => exact .cons h (ih.1 hs)
    · intro h; cases h with | cons h hs => exact .cons h (ih.2 hs)

theorem prefix_of_getElem? {β : Type} {p y : List β} (h : ∀ (i : Nat) (t : β), p[i]? = some t → y[i]? = some t) : p <+: y := by
  induction p generalizing y with
  | nil => exact List.nil_prefix
  | cons a p ih =>
    cases y with
    | nil => have := h 0 a rfl; simp at this
    | cons b y =>
      have := h 0 a rfl
      simp only [List.getElem?_cons_zero, Option.some.injEq] at this
      subst this
      exact List.cons_prefix_cons.2 ⟨rfl, ih (fun i t hi => by have := h (i + 1) t (by simpa using hi); simpa using this)⟩

theorem irange_getElem?_pred {n : Nat} {t : Int} (h : 1 ≤ t ∧ t ≤ n) : (irange 1 n)[(t - 1).toNat]? = some t := by
  rw [List.getElem?_eq_getElem (by simp; omega), getElem_irange]
  congr 1; omega

/-- The two-list schedule rearranges every list of `n` things by one and the same arrangement `y` of `1..n`, which begins
with the requested atoms. -/
theorem exec_atoms {n : Nat} {A B : List Int} (h : InjectiveMatch n (A ++ B)) :
    ∃ B' A' y, refreshSwapOrder2 (pairUp A.length B) (pairUp 0 A) = .ok (B', A') ∧ y.Perm (irange 1 n) ∧ (A ++ B) <+: y ∧
      ∀ {β : Type} {R : β → Int → Prop} {l : List β}, Rel2 R l (irange 1 n) →
        ∃ l', updateSwapLists2 B' A' l = .ok l' ∧ Rel2 R l' y := by
  have hn : (irange 1 n).length = n := by simp
  obtain ⟨B', A', y, e1, e2, hyl, hyp, hy⟩ := exec_list (x := irange 1 n) (A := A) (B := B) (by rw [hn]; exact h)
  refine ⟨B', A', y, e1, hyp, ?_, ?_⟩
  · refine prefix_of_getElem? (fun i t ht => ?_)
    rw [hy i t ht]
    exact irange_getElem?_pred (h.2 t (List.mem_of_getElem? ht))
  · intro β R l hl
    have hlen := hl.length_eq
    have hz : (l.zip (irange 1 n)).length = n := by simp at hlen ⊢; omega
    obtain ⟨B2, A2, z, e3, e4, hzl, hzp, hz'⟩ := exec_list (x := l.zip (irange 1 n)) (A := A) (B := B) (by rw [hz]; exact h)
    rw [e1] at e3
    cases e3
    have hs : (l.zip (irange 1 n)).map Prod.snd = irange 1 n := List.map_snd_zip (by omega)
    have hzy : z.map Prod.snd = y := by
      rw [updateSwapLists_append] at e2 e4
      have := updateSwapLists1_map Prod.snd (B' ++ A') (l.zip (irange 1 n))
      rw [hs, e4, e2] at this
      simpa using this.symm
    refine ⟨z.map Prod.fst, ?_, ?_⟩
    · rw [updateSwapLists_append] at e4 ⊢
      have := updateSwapLists1_map Prod.fst (B' ++ A') (l.zip (irange 1 n))
      rw [zip_map_fst _ _ hlen, e4] at this
      exact this
    · rw [← hzy]
      exact rel2_of_pairs (fun p hp => hl.mem_zip p (hzp.mem_iff.1 hp))

theorem exec_atoms1 {n : Nat} {A : List Int} (h : InjectiveMatch n A) :
    ∃ A' y, refreshSwapOrder1 (pairUp 0 A) = .ok A' ∧ y.Perm (irange 1 n) ∧ A <+: y ∧
      ∀ {β : Type} {R : β → Int → Prop} {l : List β}, Rel2 R l (irange 1 n) →
        ∃ l', updateSwapLists1 A' l = .ok l' ∧ Rel2 R l' y := by
  have hn : (irange 1 n).length = n := by simp
  obtain ⟨A', y, e1, e2, hyl, hyp, hy⟩ := exec_list1 (x := irange 1 n) (A := A) (by rw [hn]; exact h)
  refine ⟨A', y, e1, hyp, ?_, ?_⟩
  · refine prefix_of_getElem? (fun i t ht => ?_)
    rw [hy i t ht]
    exact irange_getElem?_pred (h.2 t (List.mem_of_getElem? ht))
  · intro β R l hl
    have hlen := hl.length_eq
    have hz : (l.zip (irange 1 n)).length = n := by simp at hlen ⊢; omega
    obtain ⟨A2, z, e3, e4, hzl, hzp, hz'⟩ := exec_list1 (x := l.zip (irange 1 n)) (A := A) (by rw [hz]; exact h)
    rw [e1] at e3
    cases e3
    have hs : (l.zip (irange 1 n)).map Prod.snd = irange 1 n := List.map_snd_zip (by omega)
    have hzy : z.map Prod.snd = y := by
      have := updateSwapLists1_map Prod.snd A' (l.zip (irange 1 n))
      rw [hs, e4, e2] at this
      simpa using this.symm
    refine ⟨z.map Prod.fst, ?_, ?_⟩
    · have := updateSwapLists1_map Prod.fst A' (l.zip (irange 1 n))
      rw [zip_map_fst _ _ hlen, e4] at this
      exact this
    · rw [← hzy]
      exact rel2_of_pairs (fun p hp => hl.mem_zip p (hzp.mem_iff.1 hp))

/-! ### the four unscrambling functions -/

theorem atomBlocks_eq (basis : List Int) : atomBlocks basis = (irange 1 basis.length).map (atomCols basis) := by
  apply List.ext_getElem
  · simp [atomBlocks]
  · intro n h1 h2
    simp only [atomBlocks, List.getElem_map, List.getElem_range, getElem_irange]
    congr 1; omega

theorem colsOf_eq (basis atoms : List Int) : colsOf basis atoms = (atoms.map (atomCols basis)).flatten := by
  simp [colsOf, List.flatMap]

theorem colsOf_all {basis : List Int} (hb : ∀ b ∈ basis, 1 ≤ b) : colsOf basis (irange 1 basis.length) = irange 1 basis.sum := by
  rw [colsOf_eq, ← atomBlocks_eq, atomBlocks_flatten hb]

theorem colsOf_perm {basis y : List Int} (hb : ∀ b ∈ basis, 1 ≤ b) (hy : y.Perm (irange 1 basis.length)) :
    (colsOf basis y).Perm (irange 1 basis.sum) := by
  rw [← colsOf_all hb]
  exact hy.flatMap_right _

theorem sum_nonneg {basis : List Int} (hb : ∀ b ∈ basis, 1 ≤ b) : 0 ≤ basis.sum := by
  have := sum_take_nonneg hb basis.length
  rwa [List.take_length] at this

theorem sum_pos {basis : List Int} (hb : ∀ b ∈ basis, 1 ≤ b) (hne : basis ≠ []) : 1 ≤ basis.sum := by
  cases basis with
  | nil => exact absurd rfl hne
  | cons b bs =>
    have h1 := hb b (by simp)
    have h2 := sum_nonneg (basis := bs) (fun x hx => hb x (by simp [hx]))
    simp only [List.sum_cons]; omega

theorem splitAtoms_cols [Zero α] {m : Mat α} {r : Int} {f : Int → Int → α} (hr : 1 ≤ r) {basis : List Int}
    (hb : ∀ b ∈ basis, 1 ≤ b) (hm : ColsAre m r f (irange 1 basis.sum)) :
    ∃ l, splitMatrixIntoList basis m "Columns".toList = .ok l ∧
      Rel2 (fun n k => ColsAre n r f (atomCols basis k)) l (irange 1 basis.length) := by
  have h0 := hm
  rw [← atomBlocks_flatten hb] at h0
  obtain ⟨l, e, hl⟩ := splitList_cols hr h0 (atomBlocks_ne_nil hb)
  rw [atomBlocks_sizes hb] at e
  rw [atomBlocks_eq] at hl
  exact ⟨l, e, Rel2.map_right.1 hl⟩

theorem splitAtoms_rows [Zero α] {m : Mat α} {c : Int} {f : Int → Int → α} (hc : 1 ≤ c) {basis : List Int}
    (hb : ∀ b ∈ basis, 1 ≤ b) (hm : RowsAre m c f (irange 1 basis.sum)) :
    ∃ l, splitMatrixIntoList basis m "Rows".toList = .ok l ∧
      Rel2 (fun n k => RowsAre n c f (atomCols basis k)) l (irange 1 basis.length) := by
  have h0 := hm
  rw [← atomBlocks_flatten hb] at h0
  obtain ⟨l, e, hl⟩ := splitList_rows hc h0 (atomBlocks_ne_nil hb)
  rw [atomBlocks_sizes hb] at e
  rw [atomBlocks_eq] at hl
  exact ⟨l, e, Rel2.map_right.1 hl⟩

theorem mergeAtoms_cols [Zero α] {r : Int} {f : Int → Int → α} (hr : 1 ≤ r) {basis y : List Int}
    (hb : ∀ b ∈ basis, 1 ≤ b) (hne : basis ≠ []) (hy : y.Perm (irange 1 basis.length)) {l : List (Mat α)}
    (hl : Rel2 (fun n k => ColsAre n r f (atomCols basis k)) l y) :
    ∃ m, mergeListOfMatrices l r basis.sum "Columns".toList = .ok m ∧ ColsAre m r f (colsOf basis y) := by
  have h1 := sum_pos hb hne
  rw [colsOf_eq]
  refine mergeList_cols hr h1 (Rel2.map_right.2 hl) ?_
  rw [← colsOf_eq, (colsOf_perm hb hy).length_eq]
  simp; omega

theorem mergeAtoms_rows [Zero α] {c : Int} {f : Int → Int → α} (hc : 1 ≤ c) {basis y : List Int}
    (hb : ∀ b ∈ basis, 1 ≤ b) (hne : basis ≠ []) (hy : y.Perm (irange 1 basis.length)) {l : List (Mat α)}
    (hl : Rel2 (fun n k => RowsAre n c f (atomCols basis k)) l y) :
    ∃ m, mergeListOfMatrices l basis.sum c "Rows".toList = .ok m ∧ RowsAre m c f (colsOf basis y) := by
  have h1 := sum_pos hb hne
  rw [colsOf_eq]
  refine mergeList_rows h1 hc (Rel2.map_right.2 hl) ?_
  rw [← colsOf_eq, (colsOf_perm hb hy).length_eq]
  simp; omega

/-- Second half of `unscrambleS2`. -/
def unscrambleRows2 [Zero α] (matchA matchB basis : List Int) (S : Mat α) : Res (Mat α) := do
  let l ← splitMatrixIntoList basis S "Rows".toList
  let monA := pairUp 0 matchA
  let monB := pairUp monA.length matchB
  let (monB, monA) ← refreshSwapOrder2 monB monA
  let l ← updateSwapLists2 monB monA l
  mergeListOfMatrices l S.rows S.cols "Rows".toList

/-- Second half of `unscrambleS1`. -/
def unscrambleRows1 [Zero α] (matchA basis : List Int) (S : Mat α) : Res (Mat α) := do
  let l ← splitMatrixIntoList basis S "Rows".toList
  let monA ← refreshSwapOrder1 (pairUp 0 matchA)
  let l ← updateSwapLists1 monA l
  mergeListOfMatrices l S.rows S.cols "Rows".toList

theorem unscrambleS2_eq [Zero α] (A B basis : List Int) (S : Mat α) :
    unscrambleS2 A B basis S = (unscrambleCoef2 A B basis S >>= unscrambleRows2 A B basis) := rfl

theorem unscrambleS1_eq [Zero α] (A basis : List Int) (S : Mat α) :
    unscrambleS1 A basis S = (unscrambleCoef1 A basis S >>= unscrambleRows1 A basis) := rfl

theorem irange_length_of_nonneg {c : Int} (h : 0 ≤ c) : ((irange 1 c).length : Int) = c := by simp; omega

/-- What the two-monomer functions do, with one arrangement `y` of the atoms. -/
theorem unscramble2_ok [Zero α] {basis A B : List Int} (hb : ∀ b ∈ basis, 1 ≤ b) (hne : basis ≠ [])
    (h : InjectiveMatch basis.length (A ++ B)) :
    ∃ y, y.Perm (irange 1 basis.length) ∧ (A ++ B) <+: y ∧
      (∀ (m : Mat α) (r : Int) (f : Int → Int → α), 1 ≤ r → ColsAre m r f (irange 1 basis.sum) →
        ∃ m', unscrambleCoef2 A B basis m = .ok m' ∧ ColsAre m' r f (colsOf basis y)) ∧
      (∀ (m : Mat α) (c : Int) (f : Int → Int → α), 1 ≤ c → RowsAre m c f (irange 1 basis.sum) →
        ∃ m', unscrambleRows2 A B basis m = .ok m' ∧ RowsAre m' c f (colsOf basis y)) := by
  obtain ⟨B', A', y, e1, hy, hpre, hex⟩ := exec_atoms h
  have hs := sum_pos hb hne
  refine ⟨y, hy, hpre, ?_, ?_⟩
  · intro m r f hr hm
    obtain ⟨l, e2, hl⟩ := splitAtoms_cols hr hb hm
    obtain ⟨l', e3, hl'⟩ := hex hl
    obtain ⟨m', e4, hm'⟩ := mergeAtoms_cols hr hb hne hy hl'
    refine ⟨m', ?_, hm'⟩
    unfold unscrambleCoef2
    rw [e2]
    have hmc := hm.cols
    rw [irange_length_of_nonneg (by omega)] at hmc
    simp only [Res.ok_bind, pairUp_length, e1, e3, hm.rows, hmc, e4]
  · intro m c f hc hm
    obtain ⟨l, e2, hl⟩ := splitAtoms_rows hc hb hm
    obtain ⟨l', e3, hl'⟩ := hex hl
    obtain ⟨m', e4, hm'⟩ := mergeAtoms_rows hc hb hne hy hl'
    refine ⟨m', ?_, hm'⟩
    unfold unscrambleRows2
    rw [e2]
    have hmc := hm.rows
    rw [irange_length_of_nonneg (by omega)] at hmc
    simp only [Res.ok_bind, pairUp_length, e1, e3, hm.cols, hmc, e4]

/-- What the one-monomer functions do, with one arrangement `y` of the atoms. -/
theorem unscramble1_ok [Zero α] {basis A : List Int} (hb : ∀ b ∈ basis, 1 ≤ b) (hne : basis ≠ [])
    (h : InjectiveMatch basis.length A) :
    ∃ y, y.Perm (irange 1 basis.length) ∧ A <+: y ∧
      (∀ (m : Mat α) (r : Int) (f : Int → Int → α), 1 ≤ r → ColsAre m r f (irange 1 basis.sum) →
        ∃ m', unscrambleCoef1 A basis m = .ok m' ∧ ColsAre m' r f (colsOf basis y)) ∧
      (∀ (m : Mat α) (c : Int) (f : Int → Int → α), 1 ≤ c → RowsAre m c f (irange 1 basis.sum) →
        ∃ m', unscrambleRows1 A basis m = .ok m' ∧ RowsAre m' c f (colsOf basis y)) := by
  obtain ⟨A', y, e1, hy, hpre, hex⟩ := exec_atoms1 h
  have hs := sum_pos hb hne
  refine ⟨y, hy, hpre, ?_, ?_⟩
  · intro m r f hr hm
    obtain ⟨l, e2, hl⟩ := splitAtoms_cols hr hb hm
    obtain ⟨l', e3, hl'⟩ := hex hl
    obtain ⟨m', e4, hm'⟩ := mergeAtoms_cols hr hb hne hy hl'
    refine ⟨m', ?_, hm'⟩
    unfold unscrambleCoef1
    rw [e2]
    have hmc := hm.cols
    rw [irange_length_of_nonneg (by omega)] at hmc
    simp only [Res.ok_bind, e1, e3, hm.rows, hmc, e4]
  · intro m c f hc hm
    obtain ⟨l, e2, hl⟩ := splitAtoms_rows hc hb hm
    obtain ⟨l', e3, hl'⟩ := hex hl
    obtain ⟨m', e4, hm'⟩ := mergeAtoms_rows hc hb hne hy hl'
    refine ⟨m', ?_, hm'⟩
    unfold unscrambleRows1
    rw [e2]
    have hmc := hm.rows
    rw [irange_length_of_nonneg (by omega)] at hmc
    simp only [Res.ok_bind, e1, e3, hm.cols, hmc, e4]

/-- Two halves of `unscramble_S` together: one arrangement on both sides. -/
theorem both_sides {n : Int} {f : Int → Int → α} {ix : List Int} (hn : 1 ≤ n) (hlen : (ix.length : Int) = n)
    {S1 : Mat α} (h1 : ColsAre S1 n f ix) : RowsAre S1 n (fun i j => f i (ix.getD (j - 1).toNat 0)) (irange 1 n) := by
  unfold ColsAre at h1
  rw [hlen] at h1
  exact isMat_rowsAre h1 (by omega)

end Verif.QC
