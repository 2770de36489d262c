import Verif.Spec.HeapJob
import Verif.HeapJobLemmas2
import Verif.CalcJ
/-
C129: the calculation with shared storage is the calculation with independent matrices.
C130: how much storage it leaves behind.
-/
namespace Verif.Heap
open Strings Readers
variable {α β : Type} {st : St α} {n f : Nat} {O E : List (Nat × Mat α)}

theorem is_iff {i : Nat} {m : Mat α} : Is st i m ↔ st.views[i]? = some m := by
  unfold Is St.views
  rw [List.getElem?_map, Option.map_eq_some_iff]

theorem deleted_eq : deleted st = st.heap.countP Cell.isFreed := by
  unfold deleted
  congr 1

/-- All objects of a state. -/
def everything (st : St α) : List (Nat × Mat α) := st.views.zipIdx.map fun p => (p.2, p.1)

theorem mem_everything {i : Nat} {m : Mat α} : (i, m) ∈ everything st ↔ Is st i m := by
  rw [is_iff]
  unfold everything
  simp only [List.mem_map, Prod.mk.injEq, Prod.exists]
  constructor
  · rintro ⟨a, b, h, rfl, rfl⟩
    exact List.mem_zipIdx_iff_getElem?.1 h
  · intro h
    exact ⟨m, i, List.mem_zipIdx_iff_getElem?.2 h, rfl, rfl⟩

theorem Sound.good (h : Sound st) : Good st (allocated st) (deleted st) [] (everything st) :=
  ⟨h, rfl, deleted_eq.symm, by simp, by simp, fun p hp => is_iff.1 (mem_everything.1 hp), by simp, by simp⟩

theorem Good.sound (g : Good st n f O E) : Sound st := g.alive

theorem Good.is (g : Good st n f O E) {i : Nat} {m : Mat α} (h : (i, m) ∈ E) : Is st i m := is_iff.2 (g.env _ h)

section
variable [Zero α] [Add α] [Mul α] [One α] [Sub α] [Div α]

omit [Zero α] [Add α] [Mul α] [One α] [Sub α] [Div α] in
theorem like_matching [DecidableEq β] {γ : Type} {β' : Type} (tos : α → β) (g : Good st n f O E) {a b : Nat} {ma mb : Mat α}
    (ha : (a, ma) ∈ E) (hb : (b, mb) ∈ E) {k : List Int → HM α β'} {l : List Int → Res γ} {R : β' × St α → γ → Prop}
    (hk : ∀ v, Res.Like R (k v st) (l v)) :
    Res.Like R ((matching tos a b >>= k) st) (Mat.matchCol tos ma mb >>= l) := by
  unfold matching
  rw [bind_assoc]
  refine Like.look (g.env _ ha) ?_
  rw [bind_assoc]
  exact Like.look (g.env _ hb) (Like.lift hk)

omit [One α] [Sub α] [Div α] in
theorem like_unscramble [DecidableEq β] (tos : α → β) (g : Good st n f [] E) {T : Complex} {V : QC.TransferComplex α} (h : Stands E T V)
    {x1 x2 xP : Nat} {m1 m2 mP : Mat α} (h1 : (x1, m1) ∈ E) (h2 : (x2, m2) ∈ E) (hP : (xP, mP) ∈ E) (basisP basis2 : List Int) :
    Res.Like (fun p V' => Knows p.2 (n + ((if V.cp then basis2.length + 1 else 0) + 3 * (basisP.length + 1))) f [] E (fun E' => Stands E' p.1 V'))
      (unscramble tos T x1 x2 xP basisP basis2 st) (V.unscramble tos m1 m2 mP basisP basis2) := by
  unfold unscramble QC.TransferComplex.unscramble
  rw [h.cp]
  cases hc : V.cp with
  | true =>
    simp only [if_true]
    refine like_matching tos g h1 h2 fun m12 => ?_
    refine Like.hbind (like_unscrambleCoef1 g h.coef2 m12 basis2) fun i2 st2 c2 g2 => ?_
    refine like_matching tos g2 (ma := m1) (mb := mP) (by simp [h1]) (by simp [hP]) fun m1P => ?_
    refine Like.hbind (like_unscrambleCoef1 g2 (m := V.coefP) (by simp [h.coefP]) m1P basisP) fun i3 st3 cP g3 => ?_
    refine Like.hbind (like_unscrambleS1 g3 (m := V.S) (by simp [h.S]) m1P basisP) fun i4 st4 S g4 => ?_
    refine ⟨_, fun q hq => ?_, ?_, (by
      have e : n + (basis2.length + 1) + (basisP.length + 1) + 2 * (basisP.length + 1) =
        n + (basis2.length + 1 + 3 * (basisP.length + 1)) := by omega
      rw [← e]; exact g4)⟩
    · simp [hq]
    · exact ⟨by simp [h.coef1], by simp, by simp, by simp, by simp [h.oe], h.orbs1, h.orbs2, rfl, by simp [hc, h.cp]⟩
  | false =>
    simp only [Bool.false_eq_true, if_false]
    refine like_matching tos g h1 hP fun m1P => ?_
    refine like_matching tos g h2 hP fun m2P => ?_
    refine Like.hbind (like_unscrambleCoef2 g h.coefP m1P m2P basisP) fun i3 st3 cP g3 => ?_
    refine Like.hbind (like_unscrambleS2 g3 (m := V.S) (by simp [h.S]) m1P m2P basisP) fun i4 st4 S g4 => ?_
    refine ⟨_, fun q hq => ?_, ?_, (by
      have e : n + (basisP.length + 1) + 2 * (basisP.length + 1) = n + (0 + 3 * (basisP.length + 1)) := by omega
      rw [← e]; exact g4)⟩
    · simp [hq]
    · exact ⟨by simp [h.coef1], by simp [h.coef2], by simp, by simp, by simp [h.oe], h.orbs1, h.orbs2, rfl, by simp [hc, h.cp]⟩

omit [Zero α] [Add α] [Mul α] [One α] [Sub α] [Div α] in
theorem like_newComplex (g : Good st n f O E) {c1 c2 cP iS iE : Nat} {m1 m2 mP mS mE : Mat α} (h1 : (c1, m1) ∈ E) (h2 : (c2, m2) ∈ E)
    (hP : (cP, mP) ∈ E) (hS : (iS, mS) ∈ E) (hE : (iE, mE) ∈ E) (o1 o2 : Int × Int) (cp : Bool) :
    Res.Like (fun (p : Complex × St α) V => Good p.2 n f O E ∧ Stands E p.1 V) (newComplex c1 c2 cP o1 o2 iS iE cp st)
      (QC.TransferComplex.new m1 m2 mP o1 o2 mS mE cp) := by
  have fin : ∀ b : Bool, Good st n f O E ∧ Stands E (⟨c1, c2, cP, o1, o2, iS, iE, false, b⟩ : Complex) ⟨m1, m2, mP, o1, o2, mS, mE, false, b⟩ :=
    fun b => ⟨g, h1, h2, hP, hS, hE, rfl, rfl, rfl, rfl⟩
  unfold newComplex QC.TransferComplex.new
  refine Like.look (g.env _ hS) (Like.look (g.env _ hP) ?_)
  by_cases hc : mS.cols ≠ mP.cols
  · rw [if_pos hc, if_pos hc]; rfl
  rw [if_neg hc, if_neg hc]
  refine Like.look (g.env _ h1) (Like.look (g.env _ h2) ?_)
  cases cp with
  | true =>
    simp only [if_true]
    by_cases ha : m1.cols ≠ mP.cols
    · rw [if_pos ha, if_pos ha]; rfl
    rw [if_neg ha, if_neg ha]
    by_cases hb : m2.cols ≠ mP.cols
    · rw [if_pos hb, if_pos hb]; rfl
    rw [if_neg hb, if_neg hb]
    exact fin true
  | false =>
    simp only [Bool.false_eq_true, if_false]
    by_cases ha : m1.cols + m2.cols > mP.cols
    · rw [if_pos ha, if_pos ha]; rfl
    rw [if_neg ha, if_neg ha]
    exact fin false

/-- The pointers of a coefficient file reader are to its matrices. -/
def Coefs (E : List (Nat × Mat α)) (c : Map Nat) (d : PunData α) : Prop := List.Forall₂ (fun p q => p.1 = q.1 ∧ (p.2, q.2) ∈ E) c d

omit [Zero α] [Add α] [Mul α] [One α] [Sub α] [Div α] in
theorem Coefs.mono {E' : List (Nat × Mat α)} {c : Map Nat} {d : PunData α} (h : Coefs E c d) (hE : ∀ q ∈ E, q ∈ E') : Coefs E' c d :=
  List.Forall₂.imp (fun _ _ h => ⟨h.1, hE _ h.2⟩) h

omit [Zero α] [Add α] [Mul α] [One α] [Sub α] [Div α] in
theorem like_getCoefs {γ : Type} {c : Map Nat} {d : PunData α} (h : Coefs E c d) (t : Str) {β' : Type} {k : Nat → HM α β'}
    {l : Mat α → Res γ} {R : β' × St α → γ → Prop} (hk : ∀ i m, (i, m) ∈ E → Res.Like R (k i st) (l m)) :
    Res.Like R ((getCoefs c t >>= k) st) (d.getCoefsMatrix t >>= l) := by
  have key : (∃ i m, c.get t = some i ∧ d.get t = some m ∧ (i, m) ∈ E) ∨ (c.get t = none ∧ d.get t = none) := by
    induction h with
    | nil => exact .inr ⟨rfl, rfl⟩
    | @cons p q _ _ hq _ ih =>
      obtain ⟨a, i⟩ := p
      obtain ⟨b, m⟩ := q
      obtain ⟨e, hm⟩ := hq
      simp only at e hm
      subst e
      by_cases ht : t = a
      · exact .inl ⟨i, m, by simp [Map.get, ht], by simp [Map.get, ht], hm⟩
      · simpa [Map.get, ht] using ih
  unfold getCoefs PunData.getCoefsMatrix
  rcases key with ⟨i, m, e1, e2, hm⟩ | ⟨e1, e2⟩
  · rw [e1, e2]
    exact hk i m hm
  · rw [e1, e2]
    rfl

omit [Zero α] [Add α] [Mul α] [One α] [Sub α] [Div α] in
theorem like_getOverlap {γ : Type} {S : Option Nat} {d : LogData α} (h : ∀ i, S = some i → ∃ m, d.S = some m ∧ (i, m) ∈ E)
    (h0 : S = none → d.S = none) {β' : Type} {k : Nat → HM α β'}
    {l : Mat α → Res γ} {R : β' × St α → γ → Prop} (hk : ∀ i m, (i, m) ∈ E → Res.Like R (k i st) (l m)) :
    Res.Like R ((getOverlap S >>= k) st) (d.getOverlapMatrix >>= l) := by
  unfold getOverlap LogData.getOverlapMatrix
  cases S with
  | none => rw [h0 rfl]; exact trivial
  | some i =>
    obtain ⟨m, e, hm⟩ := h i rfl
    rw [e]
    exact hk i m hm

theorem like_report [DecidableEq β] (tos : α → β) (par : Params.Params) {cP c1 c2 : Map Nat} {S : Option Nat} {prP pr1 pr2 : PunData α}
    {lrP lr1 lr2 : LogData α} (g : Good st n f [] E) (hP : Coefs E cP prP) (h1 : Coefs E c1 pr1) (h2 : Coefs E c2 pr2)
    (hS : ∀ i, S = some i → ∃ m, lrP.S = some m ∧ (i, m) ∈ E) (hS0 : S = none → lrP.S = none) :
    Res.Like (fun p r => p.1 = r ∧ ∃ n', Good p.2 n' (f + 4) [] E) (report tos par cP c1 c2 S lrP lr1 lr2 st)
      (couplingReport tos par prP pr1 pr2 lrP lr1 lr2) := by
  unfold report couplingReport
  refine like_getOverlap hS hS0 fun iS mS hmS => ?_
  refine like_getCoefs hP par.spinP fun iP mP hmP => ?_
  refine Like.lift fun oeP => ?_
  refine Like.hbind (Like.construct g (.ofVec oeP) rfl) fun ioP st1 moP g1 => ?_
  replace g1 := g1.release
  refine Like.lift fun homo1 => ?_
  refine like_getCoefs h1 par.spin1 fun i1 m1 hm1 => ?_
  refine Like.lift fun oe1 => ?_
  refine Like.hbind (Like.construct g1 (.ofVec oe1) rfl) fun io1 st2 mo1 g2 => ?_
  replace g2 := g2.release
  refine Like.lift fun homo2 => ?_
  refine like_getCoefs h2 par.spin2 fun i2 m2 hm2 => ?_
  refine Like.lift fun oe2 => ?_
  refine Like.hbind (Like.construct g2 (.ofVec oe2) rfl) fun io2 st3 mo2 g3 => ?_
  replace g3 := g3.release
  refine Like.hbind (Like.construct g3 (.ofVecVec lrP.getCoords) rfl) fun ixP st4 xP g4 => ?_
  replace g4 := g4.release
  refine Like.hbind (Like.construct g4 (.ofVecVec lr1.getCoords) rfl) fun ix1 st5 x1 g5 => ?_
  replace g5 := g5.release
  refine Like.hbind (Like.construct g5 (.ofVecVec lr2.getCoords) rfl) fun ix2 st6 x2 g6 => ?_
  replace g6 := g6.release
  refine Like.look (g6.env (io1, mo1) (by simp)) ?_
  refine Like.look (g6.env (io2, mo2) (by simp)) ?_
  refine Like.hbind (like_newComplex g6 (m1 := m1) (m2 := m2) (mP := mP) (mS := mS) (mE := moP) (by simp [hm1]) (by simp [hm2])
    (by simp [hmP]) (by simp [hmS]) (by simp) _ _ _) fun T st7 V h => ?_
  obtain ⟨g7, hT⟩ := h
  by_cases hc : lr1.getBasisFuncCount.length ≠ 0 ∧ lr2.getBasisFuncCount.length ≠ 0 ∧ lrP.getBasisFuncCount.length ≠ 0
  · simp only [if_pos hc]
    refine Like.hbind (like_unscramble tos g7 hT (m1 := x1) (m2 := x2) (mP := xP) (by simp) (by simp) (by simp) _ _) fun T' st8 V' h => ?_
    obtain ⟨E', hE, hT', g8⟩ := h
    refine Like.mono (like_calcJ g8 hT' _ _) fun p r h => ⟨h.1, _, h.2.narrow fun q hq => hE q (by simp [hq])⟩
  · simp only [if_neg hc, Res.ok_bind, pure_bind]
    refine Like.mono (like_calcJ g7 hT _ _) fun p r h => ⟨h.1, _, h.2.narrow fun q hq => (by simp [hq])⟩

omit [Zero α] [Add α] [Mul α] [One α] [Sub α] [Div α] in
theorem step_hm {γ : Type} {x : HM α γ} {β' : Type} {k : γ → HM α β'} {c : γ} {st' : St α} (h : x st = .ok (c, st')) :
    (x >>= k) st = k c st' := by
  show (x st >>= fun p => k p.1 p.2) = _
  rw [h]
  rfl

omit [Zero α] [Add α] [Mul α] [One α] [Sub α] [Div α] in
theorem like_placePun (d : PunData α) (g : Good st n f [] E) :
    ∃ c st' n', placePun d st = .ok (c, st') ∧ Knows st' n' f [] E (fun E' => Coefs E' c d) := by
  unfold placePun
  induction d generalizing st n E with
  | nil => exact ⟨[], st, n, rfl, g.knows .nil⟩
  | cons p d ih =>
    have g1 := (g.fresh p.2).release
    obtain ⟨c, st', n', e, E', hE, hc, g'⟩ := ih g1
    refine ⟨(p.1, st.objs.length) :: c, st', n', ?_, E', fun q hq => hE q (by simp [hq]), .cons ⟨rfl, hE _ (by simp)⟩ hc, g'⟩
    rw [List.mapM_cons]
    rw [step_hm (c := (p.1, st.objs.length)) (st' := st.fresh p.2 false) rfl, step_hm e]
    rfl

omit [Zero α] [Add α] [Mul α] [One α] [Sub α] [Div α] in
theorem like_placeLog (d : LogData α) (g : Good st n f [] E) :
    ∃ S st' n', placeLog d st = .ok (S, st') ∧ Knows st' n' f [] E
      (fun E' => (∀ i, S = some i → ∃ m, d.S = some m ∧ (i, m) ∈ E') ∧ (S = none → d.S = none)) := by
  unfold placeLog
  cases d.S with
  | none => exact ⟨none, st, n, rfl, g.knows ⟨by simp, fun _ => rfl⟩⟩
  | some m =>
    refine ⟨some st.objs.length, st.fresh m false, n + 1, rfl, _, fun q hq => ?_, ⟨?_, by simp⟩, (g.fresh m).release⟩
    · simp [hq]
    · rintro i hi
      cases hi
      exact ⟨m, rfl, by simp⟩

end

section
variable [Mul α] [Num α] [Zero α] [One α] [Add α] [Sub α] [Div α] [DecidableEq β]

/-- The calculation with the matrices of the six readers put on the heap. -/
theorem heap_core (tos : α → β) (par : Params.Params) (prP pr1 pr2 : PunData α) (lrP lr1 lr2 : LogData α) :
    Res.Like (fun p r => p.1 = r ∧ Sound p.2 ∧ deleted p.2 = 4)
      ((do
        let cP ← placePun prP
        let c1 ← placePun pr1
        let c2 ← placePun pr2
        let S ← placeLog lrP
        let _ ← placeLog lr1
        let _ ← placeLog lr2
        let r ← report tos par cP c1 c2 S lrP lr1 lr2
        pure (par, r) : HM α (Params.Params × QC.Report α)) ⟨[], []⟩)
      (couplingReport tos par prP pr1 pr2 lrP lr1 lr2 >>= fun r => Res.ok (par, r)) := by
  have g0 : Good (⟨[], []⟩ : St α) 0 0 [] [] := ⟨by simp, rfl, rfl, by simp, by simp, by simp, by simp, by simp⟩
  obtain ⟨cP, st1, n1, e1, E1, hE1, hP, g1⟩ := like_placePun prP g0
  obtain ⟨c1, st2, n2, e2, E2, hE2, h1, g2⟩ := like_placePun pr1 g1
  obtain ⟨c2, st3, n3, e3, E3, hE3, h2, g3⟩ := like_placePun pr2 g2
  obtain ⟨S, st4, n4, e4, E4, hE4, hS, g4⟩ := like_placeLog lrP g3
  obtain ⟨S1, st5, n5, e5, E5, hE5, -, g5⟩ := like_placeLog lr1 g4
  obtain ⟨S2, st6, n6, e6, E6, hE6, -, g6⟩ := like_placeLog lr2 g5
  rw [step_hm e1, step_hm e2, step_hm e3, step_hm e4, step_hm e5, step_hm e6]
  have h46 : ∀ q ∈ E4, q ∈ E6 := fun q h => hE6 q (hE5 q h)
  have h36 : ∀ q ∈ E3, q ∈ E6 := fun q h => h46 q (hE4 q h)
  have h26 : ∀ q ∈ E2, q ∈ E6 := fun q h => h36 q (hE3 q h)
  have h16 : ∀ q ∈ E1, q ∈ E6 := fun q h => h26 q (hE2 q h)
  refine Like.hbind (like_report tos par g6 (hP.mono h16) (h1.mono h26) (h2.mono h36)
    (fun i hi => by obtain ⟨m, e, hm⟩ := hS.1 i hi; exact ⟨m, e, h46 _ hm⟩) hS.2) fun r st' r' h => ?_
  obtain ⟨e, n', g'⟩ := h
  exact ⟨congrArg _ e, g'.sound, deleted_eq.trans g'.freed⟩

omit [Mul α] [Num α] [Zero α] [One α] [Add α] [Sub α] [Div α] in
theorem like_fst {γ : Type} {x : Res (γ × St α)} {y : Res γ} {P : St α → Prop} (h : Res.Like (fun p r => p.1 = r ∧ P p.2) x y) :
    (x >>= fun p => Res.ok p.1) = y := by
  cases x <;> cases y <;> first | exact absurd h id | exact congrArg _ h | exact congrArg _ h.1 | rfl

omit [Mul α] [Num α] [Zero α] [One α] [Add α] [Sub α] [Div α] in
theorem like_snd {γ : Type} {x : Res (γ × St α)} {y : Res γ} {P : St α → Prop} (h : Res.Like (fun p r => p.1 = r ∧ P p.2) x y) {r : γ}
    {st : St α} (hx : x = .ok (r, st)) : P st := by
  subst hx
  cases y <;> first | exact absurd h id | exact h.2

/-- C129: carried out on objects that share storage - copies of a matrix are copies of a pointer, results of `*` and `invert` are
second names of matrices that are never deleted, matrices are passed by value - calc_J does for every command line and every six files
exactly what it does when every matrix is a value of its own: the same numbers, the same exception, the same end. -/
theorem C129_same (D : Type) [Args.Dbl D] (tos : α → β) (files : Str → Option Str) (fuel : Nat) (args : List Str) :
    (calcJHeap D tos files fuel args >>= fun p => Res.ok p.1) = calcJRun D tos files fuel args := by
  unfold calcJHeap calcJRun
  rw [Args.prepareParser_ok]
  simp only [Res.ok_bind, bind_assoc]
  refine congrArg _ (funext fun q => congrArg _ (funext fun par => congrArg _ (funext fun d => ?_)))
  obtain ⟨⟨prP, pr1, pr2⟩, lrP, lr1, lr2⟩ := d
  exact like_fst (P := fun st => Sound st ∧ deleted st = 4) (heap_core tos par prP pr1 pr2 lrP lr1 lr2)

/-- C129: at the end no matrix of calc_J points to deleted storage, and storage was deleted exactly four times - that of the two rows of
coefficients and of the two zeta matrices when they got their values. -/
theorem C129_sound (D : Type) [Args.Dbl D] (tos : α → β) (files : Str → Option Str) (fuel : Nat) (args : List Str)
    (r : Params.Params × QC.Report α) (st : St α) (h : calcJHeap D tos files fuel args = .ok (r, st)) : Sound st ∧ deleted st = 4 := by
  unfold calcJHeap at h
  rw [Args.prepareParser_ok] at h
  simp only [Res.ok_bind] at h
  obtain ⟨q, -, h⟩ := Res.bind_eq_ok.1 h
  obtain ⟨par, -, h⟩ := Res.bind_eq_ok.1 h
  obtain ⟨⟨⟨prP, pr1, pr2⟩, lrP, lr1, lr2⟩, -, h⟩ := Res.bind_eq_ok.1 h
  exact like_snd (P := fun st => Sound st ∧ deleted st = 4) (heap_core tos par prP pr1 pr2 lrP lr1 lr2) h

end

section
variable [Zero α] [Add α] [Mul α] [One α] [Sub α] [Div α]

/-- What a call on objects does, against the same call on values: the same failure; or the same result, every object still being the
matrix it was, with `a` blocks of storage more, `d` of which were deleted. -/
structure Costs {γ : Type} (st : St α) (a d : Nat) (x : Res (γ × St α)) (y : Res γ) : Prop where
  like : Res.Like (fun p r => p.1 = r ∧ Sound p.2 ∧ Keeps st p.2 ∧ allocated p.2 = allocated st + a ∧ deleted p.2 = deleted st + d) x y

omit [Zero α] [Add α] [Mul α] [One α] [Sub α] [Div α] in
theorem Costs.ok {γ : Type} {a d : Nat} {x : Res (γ × St α)} {y : Res γ} {r : γ} (h : Costs st a d x y) (hy : y = .ok r) :
    ∃ st', x = .ok (r, st') ∧ Sound st' ∧ Keeps st st' ∧ allocated st' = allocated st + a ∧ deleted st' = deleted st + d := by
  have hl := h.like
  subst hy
  cases x with
  | ok p =>
    obtain ⟨e, h1, h2⟩ := hl
    exact ⟨p.2, by rw [← e], h1, h2⟩
  | _ => exact absurd hl id

omit [Zero α] [Add α] [Mul α] [One α] [Sub α] [Div α] in
theorem Good.keeps {st' : St α} (g : Good st' n f O (everything st)) : Keeps st st' := fun _ _ h => g.is (mem_everything.2 h)

/-- C130: `calculate_transfer_integral`, whatever else there is in the program and whichever of its matrices share storage. -/
theorem C130_integral (h : Sound st) {c1 c2 cP iS iE : Nat} {m1 m2 mP mS mE : Mat α} (h1 : Is st c1 m1) (h2 : Is st c2 m2) (hP : Is st cP mP)
    (hS : Is st iS mS) (hE : Is st iE mE) (cp : Bool) :
    Costs st (if cp then 22 else 26) 2 (transferIntegral c1 c2 cP iS iE cp st) (QC.transferReport m1 m2 mP mS mE cp) :=
  ⟨Like.mono (like_transferIntegral cp h.good (mem_everything.2 h1) (mem_everything.2 h2) (mem_everything.2 hP) (mem_everything.2 hS)
    (mem_everything.2 hE)) fun _ _ hr => ⟨hr.1, hr.2.sound, hr.2.keeps, hr.2.size, deleted_eq.trans hr.2.freed⟩⟩

omit [Zero α] [Add α] [Mul α] [One α] [Sub α] [Div α] in
theorem IsComplex.stands {T : Complex} {V : QC.TransferComplex α} (h : IsComplex st T V) : Stands (everything st) T V :=
  ⟨mem_everything.2 h.coef1, mem_everything.2 h.coef2, mem_everything.2 h.coefP, mem_everything.2 h.S, mem_everything.2 h.oe, h.orbs1,
    h.orbs2, h.unscrambled, h.cp⟩

omit [Zero α] [Add α] [Mul α] [One α] [Sub α] [Div α] in
theorem IsComplex.keep {st' : St α} {T : Complex} {V : QC.TransferComplex α} (h : IsComplex st T V) (hk : Keeps st st') :
    IsComplex st' T V :=
  ⟨hk _ _ h.coef1, hk _ _ h.coef2, hk _ _ h.coefP, hk _ _ h.S, hk _ _ h.oe, h.orbs1, h.orbs2, h.unscrambled, h.cp⟩

/-- C130: one `calcJ`. -/
theorem C130_calcJ (h : Sound st) {T : Complex} {V : QC.TransferComplex α} (hT : IsComplex st T V) (orbtype : Str → Option Str)
    (orbnum : Str → Option Int) :
    Costs st (if V.cp then 28 else 32) 4 (calcJ T orbtype orbnum st) (V.calcJReport orbtype orbnum) :=
  ⟨Like.mono (like_calcJ h.good hT.stands orbtype orbnum) fun _ _ hr =>
    ⟨hr.1, hr.2.sound, hr.2.keeps, hr.2.size, deleted_eq.trans hr.2.freed⟩⟩

/-- C130: any number of calls of `calcJ` on one complex, for whatever orbitals: each answers as if it were the only one, and each leaves
24 blocks of storage behind (28 without counterpoise), which nothing will ever delete. -/
theorem C130_again (h : Sound st) {T : Complex} {V : QC.TransferComplex α} (hT : IsComplex st T V)
    (calls : List ((Str → Option Str) × (Str → Option Int))) :
    Costs st (calls.length * (if V.cp then 28 else 32)) (calls.length * 4) (calls.mapM (fun c => (calcJ T c.1 c.2 : HM α (QC.Report α))) st)
      (calls.mapM fun c => V.calcJReport c.1 c.2) := by
  induction calls generalizing st with
  | nil => exact ⟨⟨rfl, h, fun _ _ h => h, by simp, by simp⟩⟩
  | cons c calls ih =>
    simp only [List.mapM_cons]
    refine ⟨Like.hbind (C130_calcJ h hT c.1 c.2).like fun r st1 r' hr => ?_⟩
    obtain ⟨e, hs, hk, ha, hd⟩ := hr
    refine Like.hbind (ih hs (hT.keep hk)).like fun rs st2 rs' hrs => ?_
    obtain ⟨e2, hs2, hk2, ha2, hd2⟩ := hrs
    simp only at e hs hk ha hd e2 hs2 hk2 ha2 hd2
    refine ⟨by simp only [e, e2], hs2, fun i m h => hk2 i m (hk i m h), ?_, ?_⟩
    · simp only [List.length_cons, ha2, ha, Nat.add_mul]; omega
    · simp only [List.length_cons, hd2, hd, Nat.add_mul]; omega

omit [One α] [Sub α] [Div α] in
/-- C130: `unscramble`. The complex gets new matrices; those it had are as they were. -/
theorem C130_unscramble [DecidableEq β] (tos : α → β) (h : Sound st) {T : Complex} {V : QC.TransferComplex α} (hT : IsComplex st T V)
    {x1 x2 xP : Nat} {m1 m2 mP : Mat α} (h1 : Is st x1 m1) (h2 : Is st x2 m2) (hP : Is st xP mP) (basisP basis2 : List Int) :
    Res.Like (fun p V' => IsComplex p.2 p.1 V' ∧ Sound p.2 ∧ Keeps st p.2 ∧ deleted p.2 = deleted st ∧
        allocated p.2 = allocated st + ((if V.cp then basis2.length + 1 else 0) + 3 * (basisP.length + 1)))
      (unscramble tos T x1 x2 xP basisP basis2 st) (V.unscramble tos m1 m2 mP basisP basis2) := by
  refine Like.mono (like_unscramble tos h.good hT.stands (mem_everything.2 h1) (mem_everything.2 h2) (mem_everything.2 hP) basisP basis2)
    fun p V' hr => ?_
  obtain ⟨E', hE, hs, g⟩ := hr
  refine ⟨⟨g.is hs.coef1, g.is hs.coef2, g.is hs.coefP, g.is hs.S, g.is hs.oe, hs.orbs1, hs.orbs2, hs.unscrambled, hs.cp⟩, g.sound,
    (g.narrow hE).keeps, deleted_eq.trans g.freed, g.size⟩

end
end Verif.Heap
