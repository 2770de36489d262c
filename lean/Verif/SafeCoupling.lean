import Verif.MainLemmas
import Verif.Props.MatrixB
/-
Which steps of the computation can run into undefined behaviour: on matrices whose elements are all set, only the exchange of blocks
outside the list of blocks can.
-/
namespace Verif
namespace Mat
variable {α : Type} [Zero α]

/-- All elements are set, and there is one shelf; there may be no rows or no columns. -/
def Flat (m : Mat α) : Prop := Init m ∧ m.shel = 1

omit [Zero α] in
theorem Sized.flat {r c : Int} {m : Mat α} (h : Sized r c m) : Flat m := ⟨h.1.toInit, h.2.2.2⟩

theorem Flat.get2 {m : Mat α} (h : Flat m) (i j : Int) : Safe (fun _ => True) (m.getElem2 i j) := by
  have : Nonempty α := ⟨0⟩
  obtain ⟨f, hf⟩ := h.1.exists_isMat
  rw [hf.get2_eq (by rw [h.2])]
  exact .ite (fun _ => .ok trivial) (fun _ => .exit _)

theorem Flat.get3 {m : Mat α} (h : Flat m) (i j k : Int) : Safe (fun _ => True) (m.getElem3 i j k) := by
  have : Nonempty α := ⟨0⟩
  obtain ⟨f, hf⟩ := h.1.exists_isMat
  rw [hf.get3_eq]
  exact .ite (fun _ => .ok trivial) (fun _ => .exit _)

theorem mk3_safe (r c : Int) : Safe (Sized r c) (mk3 r c 1 : Res (Mat α)) := by
  obtain ⟨h1, h2⟩ := C04_mk3 (α := α) r c 1
  by_cases h : 1 ≤ r ∧ 1 ≤ c
  · obtain ⟨m, e, w, a, b, d, -⟩ := h2 h.1 h.2 (by omega)
    rw [e]; exact .ok ⟨w, a, b, d⟩
  · rw [h1 (by omega)]; exact .exit _

theorem invert_safe {m : Mat α} (h : Flat m) : Safe (Sized m.cols m.rows) m.invert := by
  unfold invert
  refine .ite (fun _ => .exit _) (fun _ => (mk2_safe _ _).bind fun m2 h2 => ?_)
  exact Safe.forRange (fun a i ha => Safe.forRange (fun b j hb => (h.get2 _ _).bind fun v _ => setElem2_safe hb _ _ _) _ _ _ ha) _ _ _ h2

theorem mul_safe [Add α] [Mul α] {a b : Mat α} (ha : Flat a) (hb : Flat b) : Safe (Sized a.rows b.cols) (a.mul b) := by
  unfold mul
  refine .ite (fun _ => .exit _) (fun _ => .ite (fun _ => .exit _) (fun _ => (mk2_safe _ _).bind fun m3 h3 => ?_))
  refine Safe.forRange (fun c i hc => Safe.forRange (fun d j hd => ?_) _ _ _ hc) _ _ _ h3
  refine Safe.bind (P := fun _ => True) (Safe.forRange (fun s k _ => (ha.get2 _ _).bind fun _ _ => (hb.get2 _ _).bind fun _ _ => .ok trivial) _ _ _ trivial)
    fun s _ => setElem2_safe hd _ _ _

theorem diag_safe {m : Mat α} (h : Flat m) : Safe Flat m.diag := by
  unfold diag
  refine .ite (fun _ => .throw _) (fun _ => .ite (fun _ => .throw _) (fun _ => .ite (fun _ => ?_) (fun _ => ?_)))
  · refine (mk2_safe _ _).bind fun m2 h2 => ?_
    exact (Safe.forRange (P := Sized m.cols m.cols) (fun c i hc => (h.get2 _ _).bind fun v _ => setElem2_safe hc _ _ _) _ _ _ h2).mono
      fun _ h => h.flat
  · refine (mk2_safe _ _).bind fun m2 h2 => ?_
    exact (Safe.forRange (P := Sized m.rows m.rows) (fun c i hc => (h.get2 _ _).bind fun v _ => setElem2_safe hc _ _ _) _ _ _ h2).mono
      fun _ h => h.flat

theorem assign_safe {a b : Mat α} {r c r' c' : Int} (ha : Sized r c a) (hb : Sized r' c' b) : Safe (Sized r' c') (a.assign b) := by
  rw [C06_assign ha.1.toInit (.inl (by rw [ha.2.2.2])) hb.1 hb.2.2.2]
  exact .ok hb

theorem default_safe : Safe (Sized 1 1) (default : Res (Mat α)) := by
  obtain ⟨m, e, w, h⟩ := C04_default (α := α)
  rw [e]; exact .ok ⟨w, h.1, h.2.1, h.2.2.1⟩

/-- Well formed with one shelf, of whatever size. -/
def Solid (m : Mat α) : Prop := ∃ r c, Sized r c m

omit [Zero α] in
theorem Solid.flat {m : Mat α} (h : Solid m) : Flat m := by obtain ⟨r, c, h⟩ := h; exact h.flat

omit [Zero α] in
theorem Sized.solid {r c : Int} {m : Mat α} (h : Sized r c m) : Solid m := ⟨r, c, h⟩

theorem concatRows_safe {a b : Mat α} (ha : Solid a) (hb : Solid b) : Safe Solid (a.concatRows b) := by
  obtain ⟨r, c, ha⟩ := ha
  obtain ⟨r', c', hb⟩ := hb
  by_cases hc : c = c'
  · subst hc
    obtain ⟨m, e, w, h1, h2, h3, -⟩ := C11_concat_rows ha.1 hb.1 (by rw [ha.2.2.1, hb.2.2.1]) (by rw [ha.2.2.2, hb.2.2.2])
    rw [e]; exact .ok ⟨_, _, w, rfl, rfl, by rw [h3, ha.2.2.2]⟩
  · unfold concatRows
    rw [if_pos (by rw [ha.2.2.1, hb.2.2.1]; exact hc)]
    exact default_safe.mono fun _ h => h.solid

omit [Zero α] in
theorem setElem3_safe {r c : Int} {m : Mat α} (h : Sized r c m) (v : α) (i j k : Int) : Safe (Sized r c) (m.setElem3 v i j k) := by
  obtain ⟨f, hf⟩ := h.isMat
  obtain ⟨p1, p2⟩ := h.pos
  by_cases hi : 1 ≤ i ∧ i ≤ r ∧ 1 ≤ j ∧ j ≤ c ∧ 1 ≤ k ∧ k ≤ 1
  · obtain ⟨m', e, hm⟩ := hf.set3 hi v
    rw [e]; exact .ok (hm.sized p1 p2)
  · unfold setElem3
    rw [h.2.1, h.2.2.1, h.2.2.2]
    repeat' split
    all_goals first | exact .exit _ | omega

theorem getRow_safe {m : Mat α} (h : Flat m) (R : Int) : Safe (Sized 1 m.cols) (m.getRow R) := by
  unfold getRow
  rw [h.2]
  refine .ite (fun _ => .exit _) (fun _ => (mk3_safe _ _).bind fun m2 h2 => ?_)
  exact Safe.forRange (fun a i ha => Safe.forRange (fun b j hb => (h.get3 _ _ _).bind fun v _ => setElem3_safe hb _ _ _ _) _ _ _ ha) _ _ _ h2

end Mat

namespace QC
open Mat
variable {α : Type} [Zero α]

/-- `calculate_transfer_integral` never runs into undefined behaviour. -/
theorem transfer_safe [One α] [Add α] [Sub α] [Mul α] [Div α] {c1 c2 cP S oe : Mat α} (h1 : Flat c1) (h2 : Flat c2) (hP : Flat cP)
    (hS : Flat S) (ho : Flat oe) (cp : Bool) : Safe (fun _ => True) (calculateTransferIntegral c1 c2 cP S oe cp) := by
  rw [calculateTransferIntegral_def]
  refine (invert_safe h1).bind fun i1 j1 => (invert_safe h2).bind fun i2 j2 => (invert_safe hP).bind fun iP jP => ?_
  refine default_safe.bind fun dA kA => default_safe.bind fun dB kB => ?_
  refine Safe.bind (P := fun z : Mat α × Mat α => Flat z.1 ∧ Flat z.2) ?_ fun z hz => ?_
  · refine .ite (fun _ => ?_) (fun _ => ?_)
    · exact (assign_safe kA j1).bind fun a ha => (assign_safe kB j2).bind fun b hb => .ok ⟨ha.flat, hb.flat⟩
    · rw [j1.2.2.2, j2.2.2.2]
      refine (mk3_safe _ _).bind fun zA hA => (mk3_safe _ _).bind fun zB hB => ?_
      refine (concatRows_safe j1.solid hB.solid).bind fun ca hca => ?_
      obtain ⟨r, c, hca⟩ := hca
      refine (assign_safe kA hca).bind fun a ha => (concatRows_safe hA.solid j2.solid).bind fun cb hcb => ?_
      obtain ⟨r', c', hcb⟩ := hcb
      exact (assign_safe kB hcb).bind fun b hb => .ok ⟨ha.flat, hb.flat⟩
  · obtain ⟨zA, zB⟩ := z
    refine (invert_safe hz.1).bind fun zAi hA => (invert_safe hz.2).bind fun zBi hB => ?_
    refine (mul_safe hS jP.flat).bind fun inter hI => (mul_safe hA.flat hI.flat).bind fun gA hgA => (mul_safe hB.flat hI.flat).bind fun gB hgB => ?_
    refine (invert_safe hgA.flat).bind fun gAi kA => (invert_safe hgB.flat).bind fun gBi kB => (mul_safe hgB.flat kA.flat).bind fun sAB hs => ?_
    refine (diag_safe ho).bind fun en hen => (mul_safe hen kA.flat).bind fun t1 ht1 => (mul_safe hgB.flat ht1.flat).bind fun jAB hj => ?_
    refine (mul_safe hen kB.flat).bind fun t2 ht2 => (mul_safe hgB.flat ht2.flat).bind fun eB heB => ?_
    refine (mul_safe hen kA.flat).bind fun t3 ht3 => (mul_safe hgA.flat ht3.flat).bind fun eA heA => ?_
    exact (hj.flat.get2 _ _).bind fun _ _ => (heB.flat.get2 _ _).bind fun _ _ => (heA.flat.get2 _ _).bind fun _ _ =>
      (hs.flat.get2 _ _).bind fun _ _ => .ok trivial

theorem selectRow_safe {coef : Mat α} (h : Flat coef) (orbs : Int × Int) (kind : Str) (mo : Int) : Safe Solid (selectRow coef orbs kind mo) := by
  unfold selectRow
  refine .ite (fun _ => .ite (fun _ => .throw _) (fun _ => .ite (fun _ => .throw _) (fun _ => ?_)))
    (fun _ => .ite (fun _ => .ite (fun _ => .throw _) (fun _ => .ite (fun _ => .throw _) (fun _ => ?_))) (fun _ => .throw _))
  · exact (getRow_safe h _).mono fun _ h => h.solid
  · exact (getRow_safe h _).mono fun _ h => h.solid

omit [Zero α] in
theorem mapAt_safe {β : Type} (m : Str → Option β) (k : Str) : Safe (fun _ => True) (mapAt m k) := by
  unfold mapAt; split
  · exact .ok trivial
  · exact .throw _

/-- `calcJ` never runs into undefined behaviour on matrices whose elements are all set. -/
theorem calcJ_safe [One α] [Add α] [Sub α] [Mul α] [Div α] {T : TransferComplex α} (h1 : Flat T.coef1) (h2 : Flat T.coef2) (hP : Flat T.coefP)
    (hS : Flat T.S) (ho : Flat T.oe) (types : Str → Option Str) (nums : Str → Option Int) : Safe (fun _ => True) (T.calcJ types nums) := by
  rw [TransferComplex.calcJ_def]
  refine default_safe.bind fun d1 k1 => default_safe.bind fun d2 k2 => (mapAt_safe _ _).bind fun _ _ => (mapAt_safe _ _).bind fun _ _ => ?_
  refine (selectRow_safe h1 _ _ _).bind fun r1 hr1 => ?_
  obtain ⟨a1, b1, hr1⟩ := hr1
  refine (assign_safe k1 hr1).bind fun m1 hm1 => (mapAt_safe _ _).bind fun _ _ => (mapAt_safe _ _).bind fun _ _ => ?_
  refine (selectRow_safe h2 _ _ _).bind fun r2 hr2 => ?_
  obtain ⟨a2, b2, hr2⟩ := hr2
  exact (assign_safe k2 hr2).bind fun m2 hm2 => transfer_safe hm1.flat hm2.flat hP hS ho _

/-! ### unscrambling -/

theorem splitColsStep_safe {mat : Mat α} (hm : Flat mat) (st : List (Mat α) × Int) (sz : Int) (n : Nat)
    (h : (∀ b ∈ st.1, Flat b) ∧ st.1.length = n) :
    Safe (fun st => (∀ b ∈ st.1, Flat b) ∧ st.1.length = n + 1) (splitColsStep mat st sz) := by
  unfold splitColsStep
  refine (mk2_safe _ _).bind fun new hn => ?_
  refine Safe.bind (P := Sized mat.rows sz) ?_ fun b hb => .ok ?_
  · exact Safe.forRange (fun a i ha => Safe.forRange (fun b j hb => (hm.get2 _ _).bind fun v _ => setElem2_safe hb _ _ _) _ _ _ ha) _ _ _ hn
  · refine ⟨?_, by simp [h.2]⟩
    intro x hx
    rcases List.mem_append.1 hx with hx | hx
    · exact h.1 x hx
    · rw [List.mem_singleton.1 hx]; exact hb.flat

theorem splitRowsStep_safe {mat : Mat α} (hm : Flat mat) (st : List (Mat α) × Int) (sz : Int) (n : Nat)
    (h : (∀ b ∈ st.1, Flat b) ∧ st.1.length = n) :
    Safe (fun st => (∀ b ∈ st.1, Flat b) ∧ st.1.length = n + 1) (splitRowsStep mat st sz) := by
  unfold splitRowsStep
  refine (mk2_safe _ _).bind fun new hn => ?_
  refine Safe.bind (P := Sized sz mat.cols) ?_ fun b hb => .ok ?_
  · exact Safe.forRange (fun a i ha => Safe.forRange (fun b j hb => (hm.get2 _ _).bind fun v _ => setElem2_safe hb _ _ _) _ _ _ ha) _ _ _ hn
  · refine ⟨?_, by simp [h.2]⟩
    intro x hx
    rcases List.mem_append.1 hx with hx | hx
    · exact h.1 x hx
    · rw [List.mem_singleton.1 hx]; exact hb.flat

omit [Zero α] in
theorem count_safe {f : List (Mat α) × Int → Int → Res (List (Mat α) × Int)}
    (hf : ∀ st sz n, (∀ b ∈ st.1, Flat b) ∧ st.1.length = n → Safe (fun st => (∀ b ∈ st.1, Flat b) ∧ st.1.length = n + 1) (f st sz)) :
    ∀ (sizes : List Int) (st : List (Mat α) × Int) (n : Nat), (∀ b ∈ st.1, Flat b) ∧ st.1.length = n →
      Safe (fun st => (∀ b ∈ st.1, Flat b) ∧ st.1.length = n + sizes.length) (sizes.foldlM f st)
  | [], st, n, h => .ok (by simpa using h)
  | sz :: sizes, st, n, h => by
    rw [List.foldlM_cons]
    refine (hf st sz n h).bind fun st' h' => ?_
    have := count_safe hf sizes st' (n + 1) h'
    rw [List.length_cons, show n + (sizes.length + 1) = n + 1 + sizes.length by omega]
    exact this

/-- Splitting gives one block per entry of the list of sizes. -/
theorem split_safe {mat : Mat α} (hm : Flat mat) (sizes : List Int) (dir : Str) :
    Safe (fun l => (∀ b ∈ l, Flat b) ∧ l.length = sizes.length) (splitMatrixIntoList sizes mat dir) := by
  unfold splitMatrixIntoList
  refine .ite (fun _ => ?_) (fun _ => .ite (fun _ => ?_) (fun _ => .throw _))
  · refine (count_safe (fun st sz n h => splitColsStep_safe hm st sz n h) sizes ([], 0) 0 (by simp)).bind fun st hst => .ok ?_
    simpa using hst
  · refine (count_safe (fun st sz n h => splitRowsStep_safe hm st sz n h) sizes ([], 0) 0 (by simp)).bind fun st hst => .ok ?_
    simpa using hst

theorem merge_safe {l : List (Mat α)} (hl : ∀ b ∈ l, Flat b) (rows cols : Int) (dir : Str) :
    Safe (Sized rows cols) (mergeListOfMatrices l rows cols dir) := by
  refine ⟨?_, merge_post l rows cols dir⟩
  have cols' : ∀ (l : List (Mat α)), (∀ b ∈ l, Flat b) → ∀ st : Mat α × Int, Sized rows cols st.1 →
      Safe (fun st => Sized rows cols st.1) (l.foldlM (mergeColsStep rows cols) st) := by
    intro l
    induction l with
    | nil => intro _ st h; exact .ok h
    | cons m l ih =>
      intro hl st h
      rw [List.foldlM_cons]
      refine Safe.bind (P := fun st : Mat α × Int => Sized rows cols st.1) ?_ fun st' h' => ih (fun b hb => hl b (by simp [hb])) st' h'
      unfold mergeColsStep
      refine .ite (fun _ => .throw _) (fun _ => ?_)
      refine Safe.bind (P := fun st : Mat α × Int => Sized rows cols st.1) ?_ fun x hx => .ok hx
      refine Safe.forRange (P := fun st : Mat α × Int => Sized rows cols st.1) (fun a i ha => ?_) _ _ _ h
      refine .ite (fun _ => .throw _) (fun _ => ?_)
      refine Safe.bind (P := Sized rows cols) ?_ fun x hx => .ok hx
      exact Safe.forRange (fun a i ha => ((hl m (by simp)).get2 _ _).bind fun v _ => setElem2_safe ha _ _ _) _ _ _ ha
  have rows' : ∀ (l : List (Mat α)), (∀ b ∈ l, Flat b) → ∀ st : Mat α × Int, Sized rows cols st.1 →
      Safe (fun st => Sized rows cols st.1) (l.foldlM (mergeRowsStep rows cols) st) := by
    intro l
    induction l with
    | nil => intro _ st h; exact .ok h
    | cons m l ih =>
      intro hl st h
      rw [List.foldlM_cons]
      refine Safe.bind (P := fun st : Mat α × Int => Sized rows cols st.1) ?_ fun st' h' => ih (fun b hb => hl b (by simp [hb])) st' h'
      unfold mergeRowsStep
      refine .ite (fun _ => .throw _) (fun _ => ?_)
      refine Safe.bind (P := fun st : Mat α × Int => Sized rows cols st.1) ?_ fun x hx => .ok hx
      refine Safe.forRange (P := fun st : Mat α × Int => Sized rows cols st.1) (fun a i ha => ?_) _ _ _ h
      refine .ite (fun _ => .throw _) (fun _ => ?_)
      refine Safe.bind (P := Sized rows cols) ?_ fun x hx => .ok hx
      exact Safe.forRange (fun a i ha => ((hl m (by simp)).get2 _ _).bind fun v _ => setElem2_safe ha _ _ _) _ _ _ ha
  have main : Safe (Sized rows cols) (mergeListOfMatrices l rows cols dir) := by
    unfold mergeListOfMatrices
    refine (mk2_safe _ _).bind fun full hf => .ite (fun _ => ?_) (fun _ => .ite (fun _ => ?_) (fun _ => .throw _))
    · exact (cols' l hl _ hf).bind fun x hx => .ok hx
    · exact (rows' l hl _ hf).bind fun x hx => .ok hx
  exact main.1

/-- All positions named by the pairs are positions of a list of `n` entries. -/
def Within (n : Nat) (l : List (Int × Int)) : Prop := ∀ p ∈ l, 1 ≤ p.1 ∧ p.1 ≤ n ∧ 1 ≤ p.2 ∧ p.2 ≤ n

section
omit [Zero α]

theorem sweep_safe {n : Nat} (was is : Int) (his : 1 ≤ is ∧ is ≤ n) : ∀ (l : List (Int × Int)), Within n l → Safe (Within n) (sweep was is l)
  | [], h => .ok h
  | p :: ps, h => by
    have hp := h p (by simp)
    have ih := sweep_safe was is his ps (fun q hq => h q (by simp [hq]))
    rw [sweep]
    refine .ite (fun _ => .ite (fun _ => .diverge) (fun _ => ih.bind fun ps' h' => .ok ?_)) (fun _ => ih.bind fun ps' h' => .ok ?_)
    · intro q hq
      rcases List.mem_cons.1 hq with rfl | hq
      · exact ⟨hp.1, hp.2.1, his.1, his.2⟩
      · exact h' q hq
    · intro q hq
      rcases List.mem_cons.1 hq with rfl | hq
      · exact hp
      · exact h' q hq

theorem refreshBN_safe {n : Nat} : ∀ (k : Nat) (B A : List (Int × Int)), Within n B → Within n A →
    Safe (fun r => Within n r.1 ∧ Within n r.2) (refreshBN k B A)
  | _, [], A, hB, hA => by unfold refreshBN; exact .ok ⟨hB, hA⟩
  | 0, p :: B, A, _, _ => .diverge
  | k + 1, p :: B, A, hB, hA => by
    have hp := hB p (by simp)
    rw [refreshBN]
    refine (sweep_safe _ _ hp.2.2 B fun q hq => hB q (by simp [hq])).bind fun B' hB' => (sweep_safe _ _ hp.2.2 A hA).bind fun A' hA' => ?_
    refine (refreshBN_safe k B' A' hB' hA').bind fun r hr => .ok ⟨?_, hr.2⟩
    intro q hq
    rcases List.mem_cons.1 hq with rfl | hq
    · exact hp
    · exact hr.1 q hq

theorem refreshTailN_safe {n : Nat} (guard : Int × Int → Bool) : ∀ (k : Nat) (A : List (Int × Int)), Within n A →
    Safe (Within n) (refreshTailN guard k A)
  | _, [], hA => by unfold refreshTailN; exact .ok hA
  | 0, p :: A, _ => .diverge
  | k + 1, p :: A, hA => by
    have hp := hA p (by simp)
    have hA' : Within n A := fun q hq => hA q (by simp [hq])
    rw [refreshTailN]
    refine Safe.bind (P := Within n) (.ite (fun _ => sweep_safe _ _ hp.2.2 A hA') (fun _ => .ok hA')) fun A1 h1 => ?_
    refine (refreshTailN_safe guard k A1 h1).bind fun A2 h2 => .ok ?_
    intro q hq
    rcases List.mem_cons.1 hq with rfl | hq
    · exact hp
    · exact h2 q hq

theorem refresh2_safe {n : Nat} {B A : List (Int × Int)} (hB : Within n B) (hA : Within n A) :
    Safe (fun r => Within n r.1 ∧ Within n r.2) (refreshSwapOrder2 B A) := by
  unfold refreshSwapOrder2 refreshB refreshTail
  exact (refreshBN_safe _ B A hB hA).bind fun r hr => (refreshTailN_safe _ _ _ hr.2).bind fun A' hA' => .ok ⟨hr.1, hA'⟩

theorem swapEntry_safe {β : Type} {l : List β} {p : Int × Int} {Q : β → Prop} (hl : ∀ b ∈ l, Q b)
    (hp : 1 ≤ p.1 ∧ p.1 ≤ l.length ∧ 1 ≤ p.2 ∧ p.2 ≤ l.length) :
    Safe (fun l' => (∀ b ∈ l', Q b) ∧ l'.length = l.length) (swapEntry l p) := by
  have get : ∀ i : Int, 1 ≤ i → i ≤ l.length → Safe Q (listGet l (i - 1)) := by
    intro i h1 h2
    unfold listGet
    rw [if_neg (by omega), List.getElem?_eq_getElem (by omega : (i - 1).toNat < l.length)]
    exact .ok (hl _ (List.getElem_mem _))
  have set : ∀ (l' : List β) (i : Int) (v : β), (∀ b ∈ l', Q b) ∧ l'.length = l.length → 1 ≤ i → i ≤ l.length → Q v →
      Safe (fun l' => (∀ b ∈ l', Q b) ∧ l'.length = l.length) (listSet l' (i - 1) v) := by
    intro l' i v h h1 h2 hv
    unfold listSet
    rw [if_pos (by omega)]
    refine .ok ⟨?_, by simp [h.2]⟩
    intro b hb
    rcases List.mem_or_eq_of_mem_set hb with hb | rfl
    · exact h.1 b hb
    · exact hv
  unfold swapEntry
  refine .ite (fun _ => ?_) (fun _ => .ok ⟨hl, rfl⟩)
  refine (get _ hp.1 hp.2.1).bind fun t ht => (get _ hp.2.2.1 hp.2.2.2).bind fun v hv => ?_
  exact (set l _ v ⟨hl, rfl⟩ hp.1 hp.2.1 hv).bind fun l1 h1 => set l1 _ t h1 hp.2.2.1 hp.2.2.2 ht

theorem update1_safe {β : Type} {n : Nat} {Q : β → Prop} : ∀ (A : List (Int × Int)) (l : List β), Within n A → (∀ b ∈ l, Q b) ∧ l.length = n →
    Safe (fun l' => (∀ b ∈ l', Q b) ∧ l'.length = n) (updateSwapLists1 A l)
  | [], l, _, h => .ok h
  | p :: A, l, hA, h => by
    have hp := hA p (by simp)
    unfold updateSwapLists1
    rw [List.foldlM_cons]
    refine (swapEntry_safe h.1 (by rw [h.2]; exact hp)).bind fun l' h' => ?_
    exact update1_safe A l' (fun q hq => hA q (by simp [hq])) ⟨h'.1, by rw [h'.2, h.2]⟩

theorem update2_safe {β : Type} {n : Nat} {Q : β → Prop} {B A : List (Int × Int)} {l : List β} (hB : Within n B) (hA : Within n A)
    (h : (∀ b ∈ l, Q b) ∧ l.length = n) : Safe (fun l' => (∀ b ∈ l', Q b) ∧ l'.length = n) (updateSwapLists2 B A l) :=
  (update1_safe B l hB h).bind fun l' h' => update1_safe A l' hA h'

theorem pairUp_within {n : Nat} : ∀ (m : List Int) (k : Int), 0 ≤ k → k + m.length ≤ n → (∀ t ∈ m, 1 ≤ t ∧ t ≤ n) → Within n (pairUp k m)
  | [], _, _, _, _ => by intro p hp; cases hp
  | t :: m, k, hk, hl, hm => by
    intro p hp
    rw [List.length_cons] at hl
    rcases List.mem_cons.1 hp with rfl | hp
    · exact ⟨by simp only; omega, by simp only; omega, (hm t (by simp)).1, (hm t (by simp)).2⟩
    · exact pairUp_within m (k + 1) (by omega) (by omega) (fun u hu => hm u (by simp [hu])) p hp

end

/-- Every entry names one of the `n` blocks, and there are at most `n` entries. -/
def Names (n : Nat) (m : List Int) : Prop := m.length ≤ n ∧ ∀ t ∈ m, 1 ≤ t ∧ t ≤ n

omit [Zero α] in
theorem pairUp_len (k : Int) (m : List Int) : (pairUp k m).length = m.length := by
  induction m generalizing k with
  | nil => rfl
  | cons t m ih => simp [pairUp, ih]

theorem step2_safe {A B basis : List Int} (h : Names basis.length (A ++ B)) {m : Mat α} (hm : Flat m) (dir : Str) :
    Safe (Sized m.rows m.cols) (do
      let l ← splitMatrixIntoList basis m dir
      let monA := pairUp 0 A
      let monB := pairUp monA.length B
      let (monB, monA) ← refreshSwapOrder2 monB monA
      let l ← updateSwapLists2 monB monA l
      mergeListOfMatrices l m.rows m.cols dir) := by
  obtain ⟨hl, ht⟩ := h
  rw [List.length_append] at hl
  have wA : Within basis.length (pairUp 0 A) := pairUp_within A 0 (by omega) (by omega) (fun t h => ht t (by simp [h]))
  have wB : Within basis.length (pairUp (pairUp 0 A).length B) := by
    rw [pairUp_len]
    exact pairUp_within B _ (by omega) (by omega) (fun t h => ht t (by simp [h]))
  refine (split_safe hm basis dir).bind fun l hl => (refresh2_safe wB wA).bind fun r hr => ?_
  exact (update2_safe hr.1 hr.2 hl).bind fun l' hl' => merge_safe hl'.1 _ _ _

theorem step1_safe {A basis : List Int} (h : Names basis.length A) {m : Mat α} (hm : Flat m) (dir : Str) :
    Safe (Sized m.rows m.cols) (do
      let l ← splitMatrixIntoList basis m dir
      let monA ← refreshSwapOrder1 (pairUp 0 A)
      let l ← updateSwapLists1 monA l
      mergeListOfMatrices l m.rows m.cols dir) := by
  have wA : Within basis.length (pairUp 0 A) := pairUp_within A 0 (by omega) (by have := h.1; omega) h.2
  refine (split_safe hm basis dir).bind fun l hl => (refreshTailN_safe _ _ _ wA).bind fun r hr => ?_
  exact (update1_safe _ _ hr hl).bind fun l' hl' => merge_safe hl'.1 _ _ _

theorem unscrambleCoef2_safe {A B basis : List Int} (h : Names basis.length (A ++ B)) {m : Mat α} (hm : Flat m) :
    Safe (Sized m.rows m.cols) (unscrambleCoef2 A B basis m) := step2_safe h hm _

theorem unscrambleCoef1_safe {A basis : List Int} (h : Names basis.length A) {m : Mat α} (hm : Flat m) :
    Safe (Sized m.rows m.cols) (unscrambleCoef1 A basis m) := step1_safe h hm _

theorem unscrambleS2_safe {A B basis : List Int} (h : Names basis.length (A ++ B)) {m : Mat α} (hm : Flat m) :
    Safe (Sized m.rows m.cols) (unscrambleS2 A B basis m) := by
  unfold unscrambleS2
  refine (step2_safe h hm _).bind fun m' hm' => ?_
  have := step2_safe h hm'.flat "Rows".toList
  rw [hm'.2.1, hm'.2.2.1] at this ⊢
  exact this

theorem unscrambleS1_safe {A basis : List Int} (h : Names basis.length A) {m : Mat α} (hm : Flat m) :
    Safe (Sized m.rows m.cols) (unscrambleS1 A basis m) := by
  unfold unscrambleS1
  refine (step1_safe h hm _).bind fun m' hm' => ?_
  have := step1_safe h hm'.flat "Rows".toList
  rw [hm'.2.1, hm'.2.2.1] at this ⊢
  exact this

theorem allMatch_safe {β : Type} [DecidableEq β] (tos : α → β) {f g : Int → Res α} (hf : ∀ j, Safe (fun _ => True) (f j))
    (hg : ∀ j, Safe (fun _ => True) (g j)) : ∀ l, Safe (fun _ => True) (allMatch tos f g l)
  | [] => .ok trivial
  | j :: js => by
    rw [allMatch]
    exact (hf j).bind fun a _ => (hg j).bind fun b _ => .ite (fun _ => .ok trivial) (fun _ => allMatch_safe tos hf hg js)

omit [Zero α] in
theorem vecSet_safe {γ : Type} (l : List γ) (i : Int) (v : γ) : Safe (fun _ => True) (vecSet l i v) := by
  unfold vecSet
  exact .ite (fun _ => .ok trivial) (fun _ => .throw _)

theorem matchCol_safe {β : Type} [DecidableEq β] (tos : α → β) {a b : Mat α} (ha : Flat a) (hb : Flat b) :
    Safe (fun v => matchCol tos a b = .ok v) (matchCol tos a b) := by
  have : Safe (fun _ => True) (matchCol tos a b) := by
    unfold matchCol
    refine .ite (fun _ => .exit _) (fun _ => .ite (fun _ => .throw _) (fun _ => ?_))
    refine Safe.forRange (fun v i _ => Safe.forRange (fun v j _ => ?_) _ _ _ trivial) _ _ _ trivial
    exact (allMatch_safe tos (fun _ => ha.get2 _ _) (fun _ => hb.get2 _ _) _).bind fun b _ => .ite (fun _ => vecSet_safe _ _ _) (fun _ => .ok trivial)
  exact ⟨this.1, fun _ h => h⟩

/-- What keeps `unscramble` from undefined behaviour: each atom looked for is found, and is one of the atoms with basis functions. -/
def Matched {β : Type} [DecidableEq β] (tos : α → β) (cp : Bool) (x1 x2 xP : Mat α) (basisP basis2 : List Int) : Prop :=
  if cp then (∀ v, matchCol tos x1 x2 = .ok v → Names basis2.length v) ∧ ∀ v, matchCol tos x1 xP = .ok v → Names basisP.length v
  else ∀ v w, matchCol tos x1 xP = .ok v → matchCol tos x2 xP = .ok w → Names basisP.length (v ++ w)

theorem unscramble_safe {β : Type} [DecidableEq β] (tos : α → β) {T : TransferComplex α} (h2 : Flat T.coef2) (hP : Flat T.coefP)
    (hS : Flat T.S) {x1 x2 xP : Mat α} (k1 : Flat x1) (k2 : Flat x2) (kP : Flat xP) {basisP basis2 : List Int}
    (hm : Matched tos T.cp x1 x2 xP basisP basis2) :
    Safe (fun T' => T'.coef1 = T.coef1 ∧ T'.oe = T.oe ∧ Flat T'.coef2 ∧ Flat T'.coefP ∧ Flat T'.S) (T.unscramble tos x1 x2 xP basisP basis2) := by
  unfold TransferComplex.unscramble
  unfold Matched at hm
  refine .ite (fun c => ?_) (fun c => ?_)
  · rw [if_pos c] at hm
    refine (matchCol_safe tos k1 k2).bind fun v hv => (unscrambleCoef1_safe (hm.1 v hv) h2).bind fun m hm' => ?_
    refine (matchCol_safe tos k1 kP).bind fun w hw => (unscrambleCoef1_safe (hm.2 w hw) hP).bind fun m' hm'' => ?_
    exact (unscrambleS1_safe (hm.2 w hw) hS).bind fun m3 h3 => .ok ⟨rfl, rfl, hm'.flat, hm''.flat, h3.flat⟩
  · rw [if_neg c] at hm
    refine (matchCol_safe tos k1 kP).bind fun v hv => (matchCol_safe tos k2 kP).bind fun w hw => ?_
    exact (unscrambleCoef2_safe (hm v w hv hw) hP).bind fun m hm' => (unscrambleS2_safe (hm v w hv hw) hS).bind fun m3 h3 =>
      .ok ⟨rfl, rfl, h2, hm'.flat, h3.flat⟩

theorem new_safe (c1 c2 cP : Mat α) (o1 o2 : Int × Int) (S oe : Mat α) (cp : Bool) :
    Safe (fun T => T = ⟨c1, c2, cP, o1, o2, S, oe, false, cp⟩) (TransferComplex.new c1 c2 cP o1 o2 S oe cp) := by
  unfold TransferComplex.new
  exact .ite (fun _ => .throw _) (fun _ => .ite (fun _ => .ite (fun _ => .throw _) (fun _ => .ite (fun _ => .throw _) (fun _ => .ok rfl)))
    (fun _ => .ite (fun _ => .throw _) (fun _ => .ok rfl)))

theorem ofVec_flat (v : List α) : Safe Flat (ofVec v) := by
  by_cases h : v = []
  · rw [h, ofVec_nil]; exact .ok ⟨⟨by simp, by simp, by simp, by simp, by simp⟩, rfl⟩
  · obtain ⟨m, e, hm⟩ := ofVec_vector v h
    rw [e]
    rcases hm with hm | hm
    · exact .ok ⟨hm.wf.toInit, hm.shel⟩
    · exact .ok ⟨hm.wf.toInit, hm.shel⟩

end QC
end Verif
