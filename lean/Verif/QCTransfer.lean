import Verif.QC
import Verif.MatrixBridge
import Verif.Sum
import Verif.Spec.Report
import Mathlib.Tactic.Ring
/-
Lemmas about calculate_transfer_integral.
-/
namespace Verif.QC
open Verif.Mat
variable {α : Type}

theorem Values.isMat {m : Mat α} {r c : Int} {f : Int → Int → α} (h : Values m r c f) : IsMat m r c 1 (fun i j _ => f i j) := by
  obtain ⟨g, hg⟩ := h.wf.exists_isMat
  rw [h.rows, h.cols, h.shel] at hg
  refine hg.congr ?_
  rintro i j k ⟨i1, i2, j1, j2, k1, k2⟩
  have hk : k = 1 := by omega
  have := h.val i j i1 i2 j1 j2
  rw [hg.get2 (by omega) i1 i2 j1 j2] at this
  rw [hk]; exact Res.ok.inj this

theorem Values.pos {m : Mat α} {r c : Int} {f : Int → Int → α} (h : Values m r c f) : 1 ≤ r ∧ 1 ≤ c :=
  ⟨h.rows ▸ h.wf.rows1, h.cols ▸ h.wf.cols1⟩

theorem _root_.Verif.Mat.IsMat.values {m : Mat α} {r c : Int} {f : Int → Int → Int → α} (h : IsMat m r c 1 f) (hr : 1 ≤ r) (hc : 1 ≤ c) :
    Values m r c (fun i j => f i j 1) :=
  ⟨h.wf hr hc (by omega), h.rows, h.cols, h.shel, fun _ _ i1 i2 j1 j2 => h.get2 (by omega) i1 i2 j1 j2⟩

/-- What the program computes, whatever `+ - * /` are: the sums in the order of the loops. -/
def projSeq [Zero α] [Add α] [Mul α] (K N : Int) (zeta : Int → α) (S C : Int → Int → α) (m : Int) : α :=
  seqSum (fun p => zeta p * seqSum (fun q => S p q * C m q) N) K

def reportSeq [Zero α] [One α] [Add α] [Sub α] [Mul α] [Div α] (M : Int) (gA gB E : Int → α) : Report α :=
  let D : Int → Int → α := fun i j => if i = j then E i else 0
  let mid (g : Int → α) (k : Int) : α := seqSum (fun l => D k l * g l) M
  let S := seqSum (fun k => gB k * gA k) M
  let J := seqSum (fun k => gB k * mid gA k) M
  let eb := seqSum (fun k => gB k * mid gB k) M
  let ea := seqSum (fun k => gA k * mid gA k) M
  ⟨J, ea, eb, S, (J - 1 / (1 + 1) * (eb + ea) * S) / (1 - S * S)⟩

def couplingSeq [Zero α] [One α] [Add α] [Sub α] [Mul α] [Div α] (M : Int) (gA gB E : Int → α) : α := (reportSeq M gA gB E).jeff

theorem VectorOf.diag [Zero α] {m : Mat α} {n : Int} {E : Int → α} (h : VectorOf m n E) :
    1 ≤ n ∧ ∃ m', m.diag = .ok m' ∧ IsMat m' n n 1 (fun i j _ => if i = j then E i else 0) := by
  rcases h with h | h
  · obtain ⟨p1, p2⟩ := h.pos
    refine ⟨p1, ?_⟩
    obtain ⟨m', e, hm⟩ := diag_isMat h.isMat p1 p2 (Or.inr rfl)
    rw [show max n 1 = n by omega] at hm
    refine ⟨m', e, hm.congr ?_⟩
    rintro i j k -
    rw [if_neg (by omega : ¬ (1 : Int) > n)]
  · obtain ⟨p1, p2⟩ := h.pos
    refine ⟨p2, ?_⟩
    obtain ⟨m', e, hm⟩ := diag_isMat h.isMat p1 p2 (Or.inl rfl)
    rw [show max 1 n = n by omega] at hm
    refine ⟨m', e, hm.congr ?_⟩
    rintro i j k ⟨i1, i2, -⟩
    by_cases hn : n > 1
    · simp [hn]
    · have : i = 1 := by omega
      subst this
      simp

theorem report_core [Zero α] [One α] [Add α] [Sub α] [Mul α] [Div α] {coef1 coef2 coefP S oe : Mat α} {cp : Bool}
    {n1 n2 M N K : Int} {u v : Int → α} {C s : Int → Int → α} {E : Int → α}
    (h1 : Values coef1 1 n1 (fun _ j => u j)) (h2 : Values coef2 1 n2 (fun _ j => v j)) (hP : Values coefP M N C)
    (hS : Values S K N s) (hE : VectorOf oe M E) (hc : Conforming cp n1 n2 K) :
    transferReport coef1 coef2 coefP S oe cp =
      .ok (reportSeq M (projSeq K N (zetaA cp n1 u) s C) (projSeq K N (zetaB cp n1 v) s C) E) := by
  obtain ⟨-, p1⟩ := h1.pos
  obtain ⟨-, p2⟩ := h2.pos
  obtain ⟨pM, pN⟩ := hP.pos
  obtain ⟨pK, -⟩ := hS.pos
  obtain ⟨i1, ei1, hi1⟩ := invert_isMat h1.isMat (by omega) p1
  obtain ⟨i2, ei2, hi2⟩ := invert_isMat h2.isMat (by omega) p2
  obtain ⟨iP, eiP, hiP⟩ := invert_isMat hP.isMat pM pN
  obtain ⟨dA, edA, hdA⟩ := default_isMat (α := α)
  obtain ⟨-, En, eEn, hEn⟩ := hE.diag
  have hz : ∃ zA zB, (if cp then do
      let a ← dA.assign i1
      let b ← dA.assign i2
      Res.ok (a, b)
    else do
      let zerosA ← Mat.mk3 i1.rows 1 i1.shel
      let zerosB ← Mat.mk3 i2.rows 1 i2.shel
      let ca ← i1.concatRows zerosB
      let a ← dA.assign ca
      let cb ← zerosA.concatRows i2
      let b ← dA.assign cb
      Res.ok (a, b)) = Res.ok (zA, zB) ∧ IsMat zA K 1 1 (fun i _ _ => zetaA cp n1 u i) ∧ IsMat zB K 1 1 (fun i _ _ => zetaB cp n1 v i) := by
    cases cp with
    | true =>
      simp only [Conforming, if_true] at hc
      obtain ⟨rfl, rfl⟩ := hc
      obtain ⟨a, ea, ha⟩ := assign_isMat hdA (Or.inl (by omega)) hi1 (by omega) (by omega) (by omega)
      obtain ⟨b, eb, hb⟩ := assign_isMat hdA (Or.inl (by omega)) hi2 (by omega) (by omega) (by omega)
      refine ⟨a, b, by simp [ea, eb], ha.congr ?_, hb.congr ?_⟩ <;> rintro i j k ⟨_, _, j1, j2, k1, k2⟩ <;> simp [zetaA, zetaB]
    | false =>
      simp only [Conforming, Bool.false_eq_true, if_false] at hc
      obtain ⟨zA, ezA, hzA⟩ := mk3_isMat (α := α) (r := n1) (c := 1) (s := 1) (by omega) (by omega) (by omega)
      obtain ⟨zB, ezB, hzB⟩ := mk3_isMat (α := α) (r := n2) (c := 1) (s := 1) (by omega) (by omega) (by omega)
      obtain ⟨ca, eca, hca⟩ := concatRows_isMat hi1 hzB (by omega) (by omega) (by omega) (by omega)
      obtain ⟨cb, ecb, hcb⟩ := concatRows_isMat hzA hi2 (by omega) (by omega) (by omega) (by omega)
      obtain ⟨a, ea, ha⟩ := assign_isMat hdA (Or.inl (by omega)) hca (by omega) (by omega) (by omega)
      obtain ⟨b, eb, hb⟩ := assign_isMat hdA (Or.inl (by omega)) hcb (by omega) (by omega) (by omega)
      rw [hc] at ha hb
      refine ⟨a, b, by simp [hi1.rows, hi1.shel, hi2.rows, hi2.shel, ezA, ezB, eca, ecb, ea, eb], ha.congr ?_, hb.congr ?_⟩ <;>
        rintro i j k ⟨_, _, j1, j2, k1, k2⟩ <;> simp [zetaA, zetaB]
  obtain ⟨zA, zB, ez, hzA, hzB⟩ := hz
  obtain ⟨zAi, ezAi, hzAi⟩ := invert_isMat hzA (by omega) (by omega)
  obtain ⟨zBi, ezBi, hzBi⟩ := invert_isMat hzB (by omega) (by omega)
  obtain ⟨I, eI, hI⟩ := mul_isMat hS.isMat hiP (by omega) (by omega)
  obtain ⟨gA, egA, hgA⟩ := mul_isMat hzAi hI (by omega) (by omega)
  obtain ⟨gB, egB, hgB⟩ := mul_isMat hzBi hI (by omega) (by omega)
  obtain ⟨gAi, egAi, hgAi⟩ := invert_isMat hgA (by omega) (by omega)
  obtain ⟨gBi, egBi, hgBi⟩ := invert_isMat hgB (by omega) (by omega)
  obtain ⟨sAB, esAB, hsAB⟩ := mul_isMat hgB hgAi (by omega) (by omega)
  obtain ⟨t1, et1, ht1⟩ := mul_isMat hEn hgAi (by omega) (by omega)
  obtain ⟨t2, et2, ht2⟩ := mul_isMat hEn hgBi (by omega) (by omega)
  obtain ⟨jAB, ejAB, hjAB⟩ := mul_isMat hgB ht1 (by omega) (by omega)
  obtain ⟨eB, eeB, heB⟩ := mul_isMat hgB ht2 (by omega) (by omega)
  obtain ⟨eA, eeA, heA⟩ := mul_isMat hgA ht1 (by omega) (by omega)
  unfold transferReport
  simp only [ei1, ei2, eiP, edA, Res.ok_bind, ez, ezAi, ezBi, eI, egA, egB, egAi, egBi, esAB, eEn, et1, et2, ejAB, eeB, eeA,
    hjAB.get2 (by omega) (i := 1) (j := 1) (by omega) (by omega) (by omega) (by omega),
    heB.get2 (by omega) (i := 1) (j := 1) (by omega) (by omega) (by omega) (by omega),
    heA.get2 (by omega) (i := 1) (j := 1) (by omega) (by omega) (by omega) (by omega),
    hsAB.get2 (by omega) (i := 1) (j := 1) (by omega) (by omega) (by omega) (by omega)]
  rfl

theorem transfer_core [Zero α] [One α] [Add α] [Sub α] [Mul α] [Div α] {coef1 coef2 coefP S oe : Mat α} {cp : Bool}
    {n1 n2 M N K : Int} {u v : Int → α} {C s : Int → Int → α} {E : Int → α}
    (h1 : Values coef1 1 n1 (fun _ j => u j)) (h2 : Values coef2 1 n2 (fun _ j => v j)) (hP : Values coefP M N C)
    (hS : Values S K N s) (hE : VectorOf oe M E) (hc : Conforming cp n1 n2 K) :
    calculateTransferIntegral coef1 coef2 coefP S oe cp =
      .ok (couplingSeq M (projSeq K N (zetaA cp n1 u) s C) (projSeq K N (zetaB cp n1 v) s C) E) := by
  unfold calculateTransferIntegral
  rw [report_core h1 h2 hP hS hE hc]
  rfl

open Finset in
theorem projSeq_eq [Field α] (K N : Int) (z : Int → α) (S C : Int → Int → α) (m : Int) : projSeq K N z S C m = proj K N z S C m := by
  simp only [projSeq, seqSum_eq_sum, proj, Finset.mul_sum, mul_assoc]

open Finset in
theorem reportSeq_eq [Field α] (M : Int) (gA gB E : Int → α) : reportSeq M gA gB E = reportOf M gA gB E := by
  have hmid : ∀ (g : Int → α), ∀ k ∈ Icc 1 M, (∑ l ∈ Icc 1 M, (if k = l then E k else 0) * g l) = E k * g k := by
    intro g k hk
    rw [Finset.sum_eq_single k]
    · simp
    · intro b _ hb; rw [if_neg (Ne.symm hb), zero_mul]
    · intro h; exact absurd hk h
  unfold reportSeq reportOf coupling couplingJ siteEnergy overlapAB
  simp only [seqSum_eq_sum]
  have e : ∀ (f g : Int → α), (∑ k ∈ Icc 1 M, f k * ∑ l ∈ Icc 1 M, (if k = l then E k else 0) * g l) = ∑ k ∈ Icc 1 M, f k * E k * g k := by
    intro f g
    refine Finset.sum_congr rfl fun k hk => ?_
    rw [hmid g k hk, mul_assoc]
  rw [e, e, e]
  have e2 : ∀ f : Int → α, (∑ k ∈ Icc 1 M, f k * E k * f k) = ∑ k ∈ Icc 1 M, f k ^ 2 * E k := fun f => Finset.sum_congr rfl fun k _ => by ring
  rw [e2, e2, one_add_one_eq_two]
  congr 2
  · ring
  · ring

theorem couplingSeq_eq [Field α] (M : Int) (gA gB E : Int → α) : couplingSeq M gA gB E = coupling M gA gB E := by
  unfold couplingSeq
  rw [reportSeq_eq]
  rfl

theorem report_eq [Field α] {coef1 coef2 coefP S oe : Mat α} {cp : Bool}
    {n1 n2 M N K : Int} {u v : Int → α} {C s : Int → Int → α} {E : Int → α}
    (h1 : Values coef1 1 n1 (fun _ j => u j)) (h2 : Values coef2 1 n2 (fun _ j => v j)) (hP : Values coefP M N C)
    (hS : Values S K N s) (hE : VectorOf oe M E) (hc : Conforming cp n1 n2 K) :
    transferReport coef1 coef2 coefP S oe cp =
      .ok (reportOf M (proj K N (zetaA cp n1 u) s C) (proj K N (zetaB cp n1 v) s C) E) := by
  rw [report_core h1 h2 hP hS hE hc, reportSeq_eq]
  congr 2 <;> funext m <;> exact projSeq_eq ..

theorem transfer_eq [Field α] {coef1 coef2 coefP S oe : Mat α} {cp : Bool}
    {n1 n2 M N K : Int} {u v : Int → α} {C s : Int → Int → α} {E : Int → α}
    (h1 : Values coef1 1 n1 (fun _ j => u j)) (h2 : Values coef2 1 n2 (fun _ j => v j)) (hP : Values coefP M N C)
    (hS : Values S K N s) (hE : VectorOf oe M E) (hc : Conforming cp n1 n2 K) :
    calculateTransferIntegral coef1 coef2 coefP S oe cp =
      .ok (coupling M (proj K N (zetaA cp n1 u) s C) (proj K N (zetaB cp n1 v) s C) E) := by
  rw [transfer_core h1 h2 hP hS hE hc, couplingSeq_eq]
  congr 2 <;> funext m <;> exact projSeq_eq ..

end Verif.QC
