import Verif.HeapJobLemmas
/-
Splitting, merging, unscrambling and the transfer integral on objects and heap.
-/
namespace Verif.Heap
open Strings Readers
variable {α : Type} {st : St α} {n f : Nat} {O E : List (Nat × Mat α)}

/-- Every object in `E` is still that matrix, and possibly more is known. -/
def Knows (st : St α) (n f : Nat) (O E : List (Nat × Mat α)) (P : List (Nat × Mat α) → Prop) : Prop :=
  ∃ E', (∀ q ∈ E, q ∈ E') ∧ P E' ∧ Good st n f O E'

theorem Good.knows (g : Good st n f O E) {P : List (Nat × Mat α) → Prop} (h : P E) : Knows st n f O E P := ⟨E, fun _ h => h, h, g⟩

/-- The pointers of a list are to these matrices. -/
def Points (E : List (Nat × Mat α)) (l : List Nat) (l' : List (Mat α)) : Prop := List.Forall₂ (fun i m => (i, m) ∈ E) l l'

theorem Points.mono {E' : List (Nat × Mat α)} {l : List Nat} {l' : List (Mat α)} (h : Points E l l') (hE : ∀ q ∈ E, q ∈ E') :
    Points E' l l' := List.Forall₂.imp (fun _ _ h => hE _ h) h

theorem Like.mono {β γ : Type} {R R' : β → γ → Prop} {x : Res β} {y : Res γ} (h : Res.Like R x y) (hr : ∀ b c, R b c → R' b c) :
    Res.Like R' x y := by
  cases x <;> cases y <;> first | exact absurd h id | exact hr _ _ h | exact h

/-! ### exchanging pointers -/

section
variable {β γ : Type} {Q : β → γ → Prop}

theorem like_listGet {l : List β} {l' : List γ} (h : List.Forall₂ Q l l') (k : Int) :
    Res.Like Q (QC.listGet l k) (QC.listGet l' k) := by
  unfold QC.listGet
  split
  · trivial
  · have : ∀ k : Nat, Res.Like Q (match l[k]? with | some v => Res.ok v | none => .ub)
        (match l'[k]? with | some v => Res.ok v | none => .ub) := by
      intro k
      induction h generalizing k with
      | nil => trivial
      | cons hq _ ih =>
        cases k with
        | zero => exact hq
        | succ k => exact ih k
    exact this _

theorem forall₂_set {l : List β} {l' : List γ} (h : List.Forall₂ Q l l') {v : β} {v' : γ} (hv : Q v v') :
    ∀ k : Nat, List.Forall₂ Q (l.set k v) (l'.set k v') := by
  induction h with
  | nil => intro k; exact .nil
  | cons hq ht ih =>
    intro k
    cases k with
    | zero => exact .cons hv ht
    | succ k => exact .cons hq (ih k)

theorem like_listSet {l : List β} {l' : List γ} (h : List.Forall₂ Q l l') (k : Int) {v : β} {v' : γ} (hv : Q v v') :
    Res.Like (List.Forall₂ Q) (QC.listSet l k v) (QC.listSet l' k v') := by
  unfold QC.listSet
  rw [h.length_eq]
  split
  · exact forall₂_set h hv _
  · trivial

theorem like_swapEntry {l : List β} {l' : List γ} (h : List.Forall₂ Q l l') (p : Int × Int) :
    Res.Like (List.Forall₂ Q) (QC.swapEntry l p) (QC.swapEntry l' p) := by
  unfold QC.swapEntry
  split
  · exact Res.Like.bind (like_listGet h _) fun a a' ha => Res.Like.bind (like_listGet h _) fun b b' hb =>
      Res.Like.bind (like_listSet h _ hb) fun c c' hc => like_listSet hc _ ha
  · exact h

theorem like_update1 (A : List (Int × Int)) {l : List β} {l' : List γ} (h : List.Forall₂ Q l l') :
    Res.Like (List.Forall₂ Q) (QC.updateSwapLists1 A l) (QC.updateSwapLists1 A l') := by
  unfold QC.updateSwapLists1
  induction A generalizing l l' with
  | nil => exact h
  | cons p A ih =>
    simp only [List.foldlM_cons]
    exact Res.Like.bind (like_swapEntry h p) fun b c hc => ih hc

theorem like_update2 (B A : List (Int × Int)) {l : List β} {l' : List γ} (h : List.Forall₂ Q l l') :
    Res.Like (List.Forall₂ Q) (QC.updateSwapLists2 B A l) (QC.updateSwapLists2 B A l') :=
  Res.Like.bind (like_update1 B h) fun _ _ hc => like_update1 A hc

end

/-! ### splitting and merging -/

section
variable [Zero α] [Add α] [Mul α]

/-- How far the splitting is: the blocks made so far, the place reached. -/
def Splitting (n f : Nat) (O E : List (Nat × Mat α)) (k : Nat) (p : (List Nat × Int) × St α) (t : List (Mat α) × Int) : Prop :=
  p.1.2 = t.2 ∧ Knows p.2 (n + k) f O E (fun E' => Points E' p.1.1 t.1)

theorem like_splitCols {mat : Nat} {m : Mat α} (hm : (mat, m) ∈ E) (k : Nat) (s : List Nat × Int) (t : List (Mat α) × Int) (sz : Int)
    (h : Splitting n f O E k (s, st) t) :
    Res.Like (Splitting n f O E (k + 1)) (splitCols mat s sz st) (QC.splitColsStep m t sz) := by
  obtain ⟨h2, E', hE, hp, g⟩ := h
  unfold splitCols QC.splitColsStep
  refine Like.look (g.env _ (hE _ hm)) ?_
  refine Like.hbind (Like.construct g (.mk2 m.rows sz) rfl) fun new st1 m1 g1 => ?_
  refine Like.hbind (R := fun (p : Unit × St α) m' => Good p.2 (n + k + 1) f ((new, m') :: O) E') ?_ fun u st2 m2 g2 => ?_
  · refine Like.loop g1 fun _ st1 m1 i g1 => ?_
    refine Like.loop g1 fun _ st1 m1 j g1 => ?_
    refine Like.look (g1.env _ (hE _ hm)) ?_
    rw [show s.2 = t.2 from h2]
    exact Like.lift fun v => Like.setElem g1 v i j
  · refine ⟨by simp only; rw [show s.2 = t.2 from h2], (new, m2) :: E', fun q hq => by simp [hE q hq], ?_, g2.release⟩
    refine List.rel_append (hp.mono fun q hq => by simp [hq]) (.cons (by simp) .nil)

theorem like_splitRows {mat : Nat} {m : Mat α} (hm : (mat, m) ∈ E) (k : Nat) (s : List Nat × Int) (t : List (Mat α) × Int) (sz : Int)
    (h : Splitting n f O E k (s, st) t) :
    Res.Like (Splitting n f O E (k + 1)) (splitRows mat s sz st) (QC.splitRowsStep m t sz) := by
  obtain ⟨h2, E', hE, hp, g⟩ := h
  unfold splitRows QC.splitRowsStep
  refine Like.look (g.env _ (hE _ hm)) ?_
  refine Like.hbind (Like.construct g (.mk2 sz m.cols) rfl) fun new st1 m1 g1 => ?_
  refine Like.hbind (R := fun (p : Unit × St α) m' => Good p.2 (n + k + 1) f ((new, m') :: O) E') ?_ fun u st2 m2 g2 => ?_
  · refine Like.loop g1 fun _ st1 m1 i g1 => ?_
    refine Like.loop g1 fun _ st1 m1 j g1 => ?_
    refine Like.look (g1.env _ (hE _ hm)) ?_
    rw [show s.2 = t.2 from h2]
    exact Like.lift fun v => Like.setElem g1 v j i
  · refine ⟨by simp only; rw [show s.2 = t.2 from h2], (new, m2) :: E', fun q hq => by simp [hE q hq], ?_, g2.release⟩
    refine List.rel_append (hp.mono fun q hq => by simp [hq]) (.cons (by simp) .nil)

theorem like_split (g : Good st n f O E) {mat : Nat} {m : Mat α} (hm : (mat, m) ∈ E) (sizes : List Int) (dir : Str) :
    Res.Like (fun p l => Knows p.2 (n + sizes.length) f O E (fun E' => Points E' p.1 l)) (split sizes mat dir st)
      (QC.splitMatrixIntoList sizes m dir) := by
  unfold split QC.splitMatrixIntoList
  have h0 : Splitting n f O E 0 (([], 0), st) ([], 0) := ⟨rfl, g.knows .nil⟩
  split
  · refine Like.hbind (Like.foldlM (Q := Eq) (k := 0) (List.forall₂_eq_eq_eq ▸ rfl) h0
      (fun k s st t i i' hi h => hi ▸ like_splitCols hm k s t i h)) fun b st' c h => ?_
    rw [Nat.zero_add] at h
    exact h.2
  · split
    · refine Like.hbind (Like.foldlM (Q := Eq) (k := 0) (List.forall₂_eq_eq_eq ▸ rfl) h0
        (fun k s st t i i' hi h => hi ▸ like_splitRows hm k s t i h)) fun b st' c h => ?_
      rw [Nat.zero_add] at h
      exact h.2
    · rfl

theorem like_mergeCols {full mat : Nat} {rows cols col : Int} {m mf : Mat α} (hm : (mat, m) ∈ E) (g : Good st n f ((full, mf) :: O) E) :
    Res.Like (fun (p : Int × St α) t => p.1 = t.2 ∧ Good p.2 n f ((full, t.1) :: O) E) (mergeCols rows cols full col mat st)
      (QC.mergeColsStep rows cols (mf, col) m) := by
  unfold mergeCols QC.mergeColsStep
  simp only
  split
  · rfl
  refine Like.look (g.env _ hm) ?_
  refine Like.hbind (R := fun (p : Int × St α) t => p.1 = t.2 ∧ Good p.2 n f ((full, t.1) :: O) E) ?_ fun b st' c h => ⟨rfl, h.2⟩
  refine Like.loop ⟨rfl, g⟩ fun row st' t i ht => ?_
  obtain ⟨mf', row'⟩ := t
  obtain ⟨h1, g'⟩ := ht
  simp only at h1 g'
  subst h1
  simp only
  split
  · rfl
  refine Like.hbind (R := fun (p : Unit × St α) m' => Good p.2 n f ((full, m') :: O) E) ?_ fun b st' c h => ⟨rfl, h⟩
  refine Like.loop g' fun _ st1 m1 j g1 => ?_
  refine Like.look (g1.env _ hm) ?_
  exact Like.lift fun v => Like.setElem g1 v _ _

theorem like_mergeRows {full mat : Nat} {rows cols row : Int} {m mf : Mat α} (hm : (mat, m) ∈ E) (g : Good st n f ((full, mf) :: O) E) :
    Res.Like (fun (p : Int × St α) t => p.1 = t.2 ∧ Good p.2 n f ((full, t.1) :: O) E) (mergeRows rows cols full row mat st)
      (QC.mergeRowsStep rows cols (mf, row) m) := by
  unfold mergeRows QC.mergeRowsStep
  simp only
  split
  · rfl
  refine Like.look (g.env _ hm) ?_
  refine Like.hbind (R := fun (p : Int × St α) t => p.1 = t.2 ∧ Good p.2 n f ((full, t.1) :: O) E) ?_ fun b st' c h => ⟨rfl, h.2⟩
  refine Like.loop ⟨rfl, g⟩ fun col st' t i ht => ?_
  obtain ⟨mf', col'⟩ := t
  obtain ⟨h1, g'⟩ := ht
  simp only at h1 g'
  subst h1
  simp only
  split
  · rfl
  refine Like.hbind (R := fun (p : Unit × St α) m' => Good p.2 n f ((full, m') :: O) E) ?_ fun b st' c h => ⟨rfl, h⟩
  refine Like.loop g' fun _ st1 m1 j g1 => ?_
  refine Like.look (g1.env _ hm) ?_
  exact Like.lift fun v => Like.setElem g1 v _ _

theorem like_merge (g : Good st n f O E) {l : List Nat} {l' : List (Mat α)} (hl : Points E l l') (rows cols : Int) (dir : Str) :
    Res.Like (fun (p : Nat × St α) m => Good p.2 (n + 1) f O ((p.1, m) :: E)) (merge l rows cols dir st)
      (QC.mergeListOfMatrices l' rows cols dir) := by
  unfold merge QC.mergeListOfMatrices
  refine Like.hbind (Like.construct g (.mk2 rows cols) rfl) fun full st1 mf g1 => ?_
  have fold : ∀ (b : Int → Nat → HM α Int) (b' : Mat α × Int → Mat α → Res (Mat α × Int)),
      (∀ (st : St α) (col : Int) (mf m : Mat α) (mat : Nat), (mat, m) ∈ E → Good st (n + 1) f ((full, mf) :: O) E →
        Res.Like (fun (p : Int × St α) t => p.1 = t.2 ∧ Good p.2 (n + 1) f ((full, t.1) :: O) E) (b col mat st) (b' (mf, col) m)) →
      Res.Like (fun (p : Int × St α) t => p.1 = t.2 ∧ Good p.2 (n + 1) f ((full, t.1) :: O) E) (l.foldlM b 0 st1) (l'.foldlM b' (mf, 0)) := by
    intro b b' hb
    refine Like.foldlM (R := fun _ (p : Int × St α) (t : Mat α × Int) => p.1 = t.2 ∧ Good p.2 (n + 1) f ((full, t.1) :: O) E) (k := 0)
      (fun i m => (i, m) ∈ E) hl ⟨rfl, g1⟩ fun k s st t i i' hi h => ?_
    obtain ⟨mf1, c⟩ := t
    obtain ⟨h1, h2⟩ := h
    simp only at h1 h2
    subst h1
    exact hb st s mf1 i' i hi h2
  split
  · exact Like.hbind (fold _ _ fun st col mf m mat hm g => like_mergeCols hm g) fun b st' c h => h.2.release
  · split
    · exact Like.hbind (fold _ _ fun st col mf m mat hm g => like_mergeRows hm g) fun b st' c h => h.2.release
    · rfl

/-! ### unscrambling -/

theorem like_reorder2 (g : Good st n f O E) {mat : Nat} {m : Mat α} (hm : (mat, m) ∈ E) (matchA matchB basis : List Int) (dir : Str) :
    Res.Like (fun p m' => Good p.2 (n + (basis.length + 1)) f O ((p.1, m') :: E)) (reorder2 matchA matchB basis mat dir st) (do
      let l ← QC.splitMatrixIntoList basis m dir
      let monA := QC.pairUp 0 matchA
      let monB := QC.pairUp monA.length matchB
      let (monB, monA) ← QC.refreshSwapOrder2 monB monA
      let l ← QC.updateSwapLists2 monB monA l
      QC.mergeListOfMatrices l m.rows m.cols dir) := by
  unfold reorder2
  refine Like.hbind (like_split g hm basis dir) fun l st1 l' h => ?_
  obtain ⟨E1, hE, hl, g1⟩ := h
  refine Like.lift fun sw => ?_
  refine Res.Like.bind (R := fun (p : List Nat × St α) l' => p.2 = st1 ∧ Points E1 p.1 l') ?_ fun p l2 hp => ?_
  · have := like_update2 sw.1 sw.2 hl
    show Res.Like _ (QC.updateSwapLists2 sw.1 sw.2 l >>= fun b => Res.ok (b, st1)) _
    rw [← bind_ok' (QC.updateSwapLists2 sw.1 sw.2 l')]
    exact Res.Like.bind this fun b c h => ⟨rfl, h⟩
  · obtain ⟨l1, st1'⟩ := p
    obtain ⟨rfl, hl2⟩ := hp
    refine Like.look (g1.env _ (hE _ hm)) ?_
    have := like_merge g1 hl2 m.rows m.cols dir
    revert this
    cases merge l1 m.rows m.cols dir st1' <;> cases QC.mergeListOfMatrices l2 m.rows m.cols dir <;> intro this <;>
      first | exact this | (simp only [Res.Like] at this ⊢; rw [← Nat.add_assoc]; exact this.narrow (by
        intro q hq; simp only [List.mem_cons] at hq ⊢; exact hq.imp id (hE q)))

theorem like_reorder1 (g : Good st n f O E) {mat : Nat} {m : Mat α} (hm : (mat, m) ∈ E) (matchA basis : List Int) (dir : Str) :
    Res.Like (fun p m' => Good p.2 (n + (basis.length + 1)) f O ((p.1, m') :: E)) (reorder1 matchA basis mat dir st) (do
      let l ← QC.splitMatrixIntoList basis m dir
      let monA ← QC.refreshSwapOrder1 (QC.pairUp 0 matchA)
      let l ← QC.updateSwapLists1 monA l
      QC.mergeListOfMatrices l m.rows m.cols dir) := by
  unfold reorder1
  refine Like.hbind (like_split g hm basis dir) fun l st1 l' h => ?_
  obtain ⟨E1, hE, hl, g1⟩ := h
  refine Like.lift fun sw => ?_
  refine Res.Like.bind (R := fun (p : List Nat × St α) l' => p.2 = st1 ∧ Points E1 p.1 l') ?_ fun p l2 hp => ?_
  · have := like_update1 sw hl
    show Res.Like _ (QC.updateSwapLists1 sw l >>= fun b => Res.ok (b, st1)) _
    rw [← bind_ok' (QC.updateSwapLists1 sw l')]
    exact Res.Like.bind this fun b c h => ⟨rfl, h⟩
  · obtain ⟨l1, st1'⟩ := p
    obtain ⟨rfl, hl2⟩ := hp
    refine Like.look (g1.env _ (hE _ hm)) ?_
    have := like_merge g1 hl2 m.rows m.cols dir
    revert this
    cases merge l1 m.rows m.cols dir st1' <;> cases QC.mergeListOfMatrices l2 m.rows m.cols dir <;> intro this <;>
      first | exact this | (simp only [Res.Like] at this ⊢; rw [← Nat.add_assoc]; exact this.narrow (by
        intro q hq; simp only [List.mem_cons] at hq ⊢; exact hq.imp id (hE q)))

theorem like_unscrambleCoef2 (g : Good st n f O E) {mat : Nat} {m : Mat α} (hm : (mat, m) ∈ E) (matchA matchB basis : List Int) :
    Res.Like (fun p m' => Good p.2 (n + (basis.length + 1)) f O ((p.1, m') :: E)) (unscrambleCoef2 matchA matchB basis mat st)
      (QC.unscrambleCoef2 matchA matchB basis m) := like_reorder2 g hm matchA matchB basis _

theorem like_unscrambleCoef1 (g : Good st n f O E) {mat : Nat} {m : Mat α} (hm : (mat, m) ∈ E) (matchB basis : List Int) :
    Res.Like (fun p m' => Good p.2 (n + (basis.length + 1)) f O ((p.1, m') :: E)) (unscrambleCoef1 matchB basis mat st)
      (QC.unscrambleCoef1 matchB basis m) := like_reorder1 g hm matchB basis _

theorem like_unscrambleS2 (g : Good st n f O E) {mat : Nat} {m : Mat α} (hm : (mat, m) ∈ E) (matchA matchB basis : List Int) :
    Res.Like (fun p m' => Good p.2 (n + 2 * (basis.length + 1)) f O ((p.1, m') :: E)) (unscrambleS2 matchA matchB basis mat st)
      (QC.unscrambleS2 matchA matchB basis m) := by
  unfold unscrambleS2 QC.unscrambleS2
  refine Like.hbind (like_reorder2 g hm matchA matchB basis _) fun S1 st1 M1 g1 => ?_
  refine Like.mono (like_reorder2 g1 (mat := S1) (m := M1) (by simp) matchA matchB basis "Rows".toList) fun p m' g2 => ?_
  rw [Nat.two_mul, ← Nat.add_assoc]
  exact g2.narrow (by intro q hq; simp only [List.mem_cons] at hq ⊢; exact hq.imp id .inr)

theorem like_unscrambleS1 (g : Good st n f O E) {mat : Nat} {m : Mat α} (hm : (mat, m) ∈ E) (matchA basis : List Int) :
    Res.Like (fun p m' => Good p.2 (n + 2 * (basis.length + 1)) f O ((p.1, m') :: E)) (unscrambleS1 matchA basis mat st)
      (QC.unscrambleS1 matchA basis m) := by
  unfold unscrambleS1 QC.unscrambleS1
  refine Like.hbind (like_reorder1 g hm matchA basis _) fun S1 st1 M1 g1 => ?_
  refine Like.mono (like_reorder1 g1 (mat := S1) (m := M1) (by simp) matchA basis "Rows".toList) fun p m' g2 => ?_
  rw [Nat.two_mul, ← Nat.add_assoc]
  exact g2.narrow (by intro q hq; simp only [List.mem_cons] at hq ⊢; exact hq.imp id .inr)

/-! ### the transfer integral -/

theorem like_setZetas (cp : Bool) {inv1 inv2 zA zB : Nat} {m1 m2 dA dB : Mat α} (g : Good st n f ((zB, dB) :: (zA, dA) :: O) E)
    (h1 : (inv1, m1) ∈ E) (h2 : (inv2, m2) ∈ E) :
    Res.Like (fun (p : Unit × St α) (z : Mat α × Mat α) => Good p.2 (n + (if cp then 2 else 6)) (f + 2) O ((zB, z.2) :: (zA, z.1) :: E))
      (setZetas cp inv1 inv2 zA zB st)
      (if cp then do
        let a ← dA.assign m1
        let b ← dB.assign m2
        Res.ok (a, b)
      else do
        let zerosA ← Mat.mk3 m1.rows 1 m1.shel
        let zerosB ← Mat.mk3 m2.rows 1 m2.shel
        let ca ← m1.concatRows zerosB
        let a ← dA.assign ca
        let cb ← zerosA.concatRows m2
        let b ← dB.assign cb
        Res.ok (a, b)) := by
  unfold setZetas
  cases cp with
  | true =>
    simp only [if_true]
    refine Like.hbind (Like.assign g.swap h1) fun _ st1 a g1 => ?_
    rw [← bind_ok' (act (.assign zB inv2) st1)]
    exact Res.Like.bind (Like.assign g1 (by simp [h2])) fun p b g2 => g2
  | false =>
    simp only [Bool.false_eq_true, if_false]
    refine Like.look (g.env _ h1) ?_
    refine Like.hbind (Like.construct g (.mk3 m1.rows 1 m1.shel) rfl) fun iA st1 zerosA g1 => ?_
    replace g1 := g1.release
    refine Like.look (g1.env (inv2, m2) (by simp [h2])) ?_
    refine Like.hbind (Like.construct g1 (.mk3 m2.rows 1 m2.shel) rfl) fun iB st2 zerosB g2 => ?_
    replace g2 := g2.release
    unfold assignConcat
    rw [bind_assoc]
    refine Like.copy g2 (i := inv1) (m := m1) (by simp [h1]) fun j3 st3 g3 => ?_
    rw [bind_assoc]
    refine Like.hbind (Like.combine g3 (i := j3) (a := m1) (j := iB) (b := zerosB) (by simp) (by simp) .concatRows) fun t4 st4 ca g4 => ?_
    refine Like.hbind (Like.assign g4.swap (j := t4) (mj := ca) (by simp)) fun _ st5 a g5 => ?_
    refine Like.copy g5 (i := iA) (m := zerosA) (by simp) fun j6 st6 g6 => ?_
    refine Like.hbind (Like.combine g6 (i := j6) (a := zerosA) (j := inv2) (b := m2) (by simp) (by simp [h2]) .concatRows)
      fun t7 st7 cb g7 => ?_
    rw [← bind_ok' (act (.assign zB t7) st7)]
    refine Res.Like.bind (Like.assign g7 (j := t7) (mj := cb) (by simp)) fun p b g8 => ?_
    exact g8.narrow (by
      intro q hq
      simp only [List.mem_cons] at hq ⊢
      rcases hq with h | h | h
      · exact .inl h
      · subst h; simp
      · simp [h])

variable [One α] [Sub α] [Div α]

omit [Zero α] [Add α] [Mul α] [One α] [Sub α] [Div α] in
theorem like_corner {β γ : Type} (g : Good st n f O E) {i : Nat} {m : Mat α} (h : (i, m) ∈ E) {k : α → HM α β} {l : α → Res γ}
    {R : β × St α → γ → Prop} (hk : ∀ v, Res.Like R (k v st) (l v)) :
    Res.Like R ((corner i >>= k) st) (m.getElem2 1 1 >>= l) := by
  unfold corner
  rw [bind_assoc]
  exact Like.look (g.env _ h) (Like.lift hk)

theorem like_transferIntegral {c1 c2 cP iS iE : Nat} {m1 m2 mP mS mE : Mat α} (cp : Bool) (g : Good st n f [] E)
    (h1 : (c1, m1) ∈ E) (h2 : (c2, m2) ∈ E) (hP : (cP, mP) ∈ E) (hS : (iS, mS) ∈ E) (hE : (iE, mE) ∈ E) :
    Res.Like (fun p r => p.1 = r ∧ Good p.2 (n + (if cp then 22 else 26)) (f + 2) [] E) (transferIntegral c1 c2 cP iS iE cp st)
      (QC.transferReport m1 m2 mP mS mE cp) := by
  unfold transferIntegral QC.transferReport
  refine Like.copy g hP fun P st0 g0 => ?_
  refine Like.hbind (Like.invert g0 (i := c1) (m := m1) (by simp [h1])) fun i1 st1 inv1 g1 => ?_
  refine Like.hbind (Like.invert g1 (i := c2) (m := m2) (by simp [h2])) fun i2 st2 inv2 g2 => ?_
  refine Like.hbind (Like.invert g2 (i := P) (m := mP) (by simp)) fun i3 st3 invP g3 => ?_
  refine Like.hbind (Like.construct g3 .default rfl) fun zA st4 dA g4 => ?_
  refine Like.hbind (Like.construct g4 .default rfl) fun zB st5 dB g5 => ?_
  refine Like.hbind (like_setZetas cp g5 (inv1 := i1) (m1 := inv1) (inv2 := i2) (m2 := inv2) (by simp) (by simp)) fun _ st6 z g6 => ?_
  refine Like.hbind (Like.invert g6 (i := zA) (m := z.1) (by simp)) fun i7 st7 zAi g7 => ?_
  refine Like.hbind (Like.invert g7 (i := zB) (m := z.2) (by simp)) fun i8 st8 zBi g8 => ?_
  refine Like.hbind (Like.product g8 (i := iS) (a := mS) (j := i3) (b := invP) (by simp [hS]) (by simp)) fun i9 st9 inter g9 => ?_
  refine Like.hbind (Like.product g9 (i := i7) (a := zAi) (j := i9) (b := inter) (by simp) (by simp)) fun i10 st10 gA g10 => ?_
  refine Like.hbind (Like.product g10 (i := i8) (a := zBi) (j := i9) (b := inter) (by simp) (by simp)) fun i11 st11 gB g11 => ?_
  refine Like.hbind (Like.invert g11 (i := i10) (m := gA) (by simp)) fun i12 st12 gAi g12 => ?_
  refine Like.hbind (Like.invert g12 (i := i11) (m := gB) (by simp)) fun i13 st13 gBi g13 => ?_
  refine Like.hbind (Like.product g13 (i := i11) (a := gB) (j := i12) (b := gAi) (by simp) (by simp)) fun i14 st14 sAB g14 => ?_
  refine Like.hbind (Like.derive g14 (i := iE) (m := mE) (g14.env (iE, mE) (by simp [hE])) .diag) fun i15 st15 energy g15 => ?_
  refine Like.hbind (Like.combine g15 (i := i15) (a := energy) (j := i12) (b := gAi) (by simp) (by simp) .mul) fun i16 st16 t1 g16 => ?_
  refine Like.hbind (Like.product g16 (i := i11) (a := gB) (j := i16) (b := t1) (by simp) (by simp)) fun i17 st17 jAB g17 => ?_
  refine Like.hbind (Like.combine g17 (i := i15) (a := energy) (j := i13) (b := gBi) (by simp) (by simp) .mul) fun i18 st18 t2 g18 => ?_
  refine Like.hbind (Like.product g18 (i := i11) (a := gB) (j := i18) (b := t2) (by simp) (by simp)) fun i19 st19 eB g19 => ?_
  refine Like.hbind (Like.combine g19 (i := i15) (a := energy) (j := i12) (b := gAi) (by simp) (by simp) .mul) fun i20 st20 t3 g20 => ?_
  refine Like.hbind (Like.product g20 (i := i10) (a := gA) (j := i20) (b := t3) (by simp) (by simp)) fun i21 st21 eA g21 => ?_
  refine like_corner g21 (i := i17) (m := jAB) (by simp) fun jab => ?_
  refine like_corner g21 (i := i19) (m := eB) (by simp) fun eb => ?_
  refine like_corner g21 (i := i21) (m := eA) (by simp) fun ea => ?_
  refine like_corner g21 (i := i14) (m := sAB) (by simp) fun sab => ?_
  refine ⟨rfl, ?_⟩
  have g22 := g21.narrow (E' := E) (by intro q hq; simp [hq])
  have e : n + 1 + 1 + 1 + 1 + 1 + (if cp then 2 else 6) + 1 + 1 + 1 + 1 + 1 + 1 + 1 + 1 + 1 + 1 + 1 + 1 + 1 + 1 + 1 =
      n + (if cp then 22 else 26) := by
    cases cp <;> simp <;> omega
  rw [← e]
  exact g22

/-- The pointers of a complex are to the matrices of a complex. -/
structure Stands (E : List (Nat × Mat α)) (T : Complex) (V : QC.TransferComplex α) : Prop where
  coef1 : (T.coef1, V.coef1) ∈ E
  coef2 : (T.coef2, V.coef2) ∈ E
  coefP : (T.coefP, V.coefP) ∈ E
  S : (T.S, V.S) ∈ E
  oe : (T.oe, V.oe) ∈ E
  orbs1 : T.orbs1 = V.orbs1
  orbs2 : T.orbs2 = V.orbs2
  unscrambled : T.unscrambled = V.unscrambled
  cp : T.cp = V.cp

theorem like_assignRow {z coef : Nat} {d m : Mat α} (g : Good st n f ((z, d) :: O) E) (h : (coef, m) ∈ E) (orbs : Int × Int) (kind : Str)
    (mo : Int) :
    Res.Like (fun (p : Unit × St α) m' => Good p.2 (n + 2) (f + 1) O ((z, m') :: E)) (assignRow z coef orbs kind mo st)
      (QC.selectRow m orbs kind mo >>= fun r => d.assign r) := by
  have row : ∀ k : Int, Res.Like (fun (p : Unit × St α) m' => Good p.2 (n + 2) (f + 1) O ((z, m') :: E))
      ((do let r ← make (.derive coef (.getRow k)); act (.assign z r) : HM α Unit) st) (m.getRow k >>= fun r => d.assign r) := by
    intro k
    refine Like.hbind (Like.derive g (i := coef) (m := m) (g.env _ h) (.getRow k)) fun i st1 r g1 => ?_
    refine Like.mono (Like.assign g1 (j := i) (mj := r) (by simp)) fun p m' g2 => ?_
    exact g2.narrow (by intro q hq; simp only [List.mem_cons] at hq ⊢; exact hq.imp id .inr)
  unfold assignRow QC.selectRow
  split
  · split
    · rfl
    · split
      · rfl
      · exact row _
  · split
    · split
      · rfl
      · split
        · rfl
        · exact row _
    · rfl

theorem like_assignRow' {β γ : Type} {z coef : Nat} {d m : Mat α} (g : Good st n f ((z, d) :: O) E) (h : (coef, m) ∈ E)
    (orbs : Int × Int) (kind : Str) (mo : Int) {k : Unit → HM α β} {l : Mat α → Res γ} {R : β × St α → γ → Prop}
    (hk : ∀ st' m', Good st' (n + 2) (f + 1) O ((z, m') :: E) → Res.Like R (k () st') (l m')) :
    Res.Like R ((assignRow z coef orbs kind mo >>= k) st) (QC.selectRow m orbs kind mo >>= fun r => d.assign r >>= l) := by
  rw [← bind_assoc]
  exact Like.hbind (like_assignRow g h orbs kind mo) fun _ st' m' g' => hk st' m' g'

theorem like_calcJ {T : Complex} {V : QC.TransferComplex α} (g : Good st n f [] E) (h : Stands E T V) (orbtype : Str → Option Str)
    (orbnum : Str → Option Int) :
    Res.Like (fun p r => p.1 = r ∧ Good p.2 (n + (if V.cp then 28 else 32)) (f + 4) [] E) (calcJ T orbtype orbnum st)
      (V.calcJReport orbtype orbnum) := by
  unfold calcJ QC.TransferComplex.calcJReport
  rw [h.orbs1, h.orbs2, h.cp]
  refine Like.hbind (Like.construct g .default rfl) fun z1 st1 d1 g1 => ?_
  refine Like.hbind (Like.construct g1 .default rfl) fun z2 st2 d2 g2 => ?_
  refine Like.lift fun k1 => ?_
  refine Like.lift fun n1 => ?_
  refine like_assignRow' g2.swap h.coef1 V.orbs1 k1 n1 fun st3 m1 g3 => ?_
  refine Like.lift fun k2 => ?_
  refine Like.lift fun n2 => ?_
  refine like_assignRow' g3 (m := V.coef2) (by simp [h.coef2]) V.orbs2 k2 n2 fun st4 m2 g4 => ?_
  refine Like.mono (like_transferIntegral V.cp g4 (m1 := m1) (m2 := m2) (mP := V.coefP) (mS := V.S) (mE := V.oe) (by simp) (by simp)
    (by simp [h.coefP]) (by simp [h.S]) (by simp [h.oe])) fun p r hr => ⟨hr.1, ?_⟩
  have g5 := hr.2.narrow (E' := E) (by intro q hq; simp [hq])
  have e : n + 1 + 1 + 2 + 2 + (if V.cp then 22 else 26) = n + (if V.cp then 28 else 32) := by
    cases V.cp <;> simp <;> omega
  rw [← e]
  exact g5

end
end Verif.Heap
