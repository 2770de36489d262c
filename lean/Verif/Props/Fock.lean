import Verif.Spec.Fock
import Verif.Spec.Report
import Verif.Props.Output
import Mathlib.LinearAlgebra.Matrix.NonsingularInverse
import Mathlib.LinearAlgebra.Matrix.SemiringInverse
import Mathlib.Analysis.Real.Sqrt
import Mathlib.Tactic.LinearCombination
import Mathlib.Tactic.FieldSimp
import Mathlib.Tactic.Linarith
import Mathlib.Tactic.Positivity
/-
C132: the number `calculate_transfer_integral` returns is the coupling of the two orbitals in the Fock matrix of the dimer, after
Loewdin orthogonalisation.
-/
namespace Verif
open Strings Readers QC Mat Finset

section
variable {α : Type} [Field α]

/-- Orthonormal orbitals as many as basis functions are complete: `∑ₘ S C_m C_m(q) = δ`. -/
theorem Orthonormal.complete {K : Int} {S C : Int → Int → α} (h : Orthonormal K S C) {p q : Int} (hp : 1 ≤ p) (hp' : p ≤ K) (hq : 1 ≤ q)
    (hq' : q ≤ K) : ∑ m ∈ Icc 1 K, (∑ r ∈ Icc 1 K, S p r * C m r) * C m q = if p = q then 1 else 0 := by
  let T : Matrix (Icc (1 : Int) K) (Icc (1 : Int) K) α := fun p m => ∑ r ∈ Icc 1 K, S p r * C m r
  let D : Matrix (Icc (1 : Int) K) (Icc (1 : Int) K) α := fun m q => C m q
  have h1 : D * T = 1 := by
    ext m n
    rw [Matrix.mul_apply, Matrix.one_apply]
    have := h m n (mem_Icc.1 m.2).1 (mem_Icc.1 m.2).2 (mem_Icc.1 n.2).1 (mem_Icc.1 n.2).2
    unfold sandwich at this
    rw [← Finset.sum_coe_sort (Icc 1 K)] at this
    simp only [← Subtype.ext_iff] at this
    rw [← this]
    refine Finset.sum_congr rfl fun p _ => ?_
    show C m p * ∑ r ∈ Icc 1 K, S p r * C n r = _
    rw [Finset.mul_sum]
    exact Finset.sum_congr rfl fun r _ => by ring
  have h2 : T * D = 1 := mul_eq_one_comm.1 h1
  have := congrFun (congrFun h2 ⟨p, mem_Icc.2 ⟨hp, hp'⟩⟩) ⟨q, mem_Icc.2 ⟨hq, hq'⟩⟩
  rw [Matrix.mul_apply, Matrix.one_apply] at this
  simp only [Subtype.mk.injEq] at this
  rw [← this, ← Finset.sum_coe_sort (Icc 1 K)]

/-- The projection in two steps. -/
theorem proj_eq (K : Int) (z : Int → α) (S C : Int → Int → α) (m : Int) :
    proj K K z S C m = ∑ p ∈ Icc 1 K, z p * ∑ q ∈ Icc 1 K, S p q * C m q := by
  unfold proj
  refine Finset.sum_congr rfl fun p _ => ?_
  rw [Finset.mul_sum]
  exact Finset.sum_congr rfl fun q _ => by ring

/-- A matrix known on the orbitals is known: `∑ₘ ⟨a|A C_m⟩ ⟨b|S C_m⟩ = ⟨a|A|b⟩`. -/
theorem expand {K : Int} {S C : Int → Int → α} (h : Orthonormal K S C) (a b : Int → α) (A : Int → Int → α) :
    ∑ m ∈ Icc 1 K, (∑ p ∈ Icc 1 K, a p * ∑ q ∈ Icc 1 K, A p q * C m q) * proj K K b S C m = sandwich K a A b := by
  calc ∑ m ∈ Icc 1 K, (∑ p ∈ Icc 1 K, a p * ∑ q ∈ Icc 1 K, A p q * C m q) * proj K K b S C m
      = ∑ m ∈ Icc 1 K, ∑ p ∈ Icc 1 K, ∑ q ∈ Icc 1 K, ∑ r ∈ Icc 1 K, a p * A p q * b r * ((∑ t ∈ Icc 1 K, S r t * C m t) * C m q) := by
        refine Finset.sum_congr rfl fun m _ => ?_
        rw [proj_eq, Finset.sum_mul]
        refine Finset.sum_congr rfl fun p _ => ?_
        rw [Finset.mul_sum (a := a p), Finset.sum_mul]
        refine Finset.sum_congr rfl fun q _ => ?_
        rw [Finset.mul_sum]
        exact Finset.sum_congr rfl fun r _ => by ring
    _ = ∑ p ∈ Icc 1 K, ∑ q ∈ Icc 1 K, ∑ r ∈ Icc 1 K, a p * A p q * b r * ∑ m ∈ Icc 1 K, (∑ t ∈ Icc 1 K, S r t * C m t) * C m q := by
        rw [Finset.sum_comm]
        refine Finset.sum_congr rfl fun p _ => ?_
        rw [Finset.sum_comm]
        refine Finset.sum_congr rfl fun q _ => ?_
        rw [Finset.sum_comm]
        refine Finset.sum_congr rfl fun r _ => ?_
        rw [Finset.mul_sum]
    _ = sandwich K a A b := by
        unfold sandwich
        refine Finset.sum_congr rfl fun p _ => Finset.sum_congr rfl fun q hq => ?_
        rw [Finset.sum_eq_single q]
        · rw [Orthonormal.complete h (mem_Icc.1 hq).1 (mem_Icc.1 hq).2 (mem_Icc.1 hq).1 (mem_Icc.1 hq).2, if_pos rfl, mul_one]
        · intro r hr hne
          rw [Orthonormal.complete h (mem_Icc.1 hr).1 (mem_Icc.1 hr).2 (mem_Icc.1 hq).1 (mem_Icc.1 hq).2, if_neg hne, mul_zero]
        · exact fun hn => absurd hq hn

/-- The sum over dimer orbitals weighted by their energies is the Fock matrix. -/
theorem fock_sum {K : Int} {F S C : Int → Int → α} {E : Int → α} (h : Orthonormal K S C) (hF : Roothaan K F S C E) (a b : Int → α) :
    ∑ m ∈ Icc 1 K, E m * proj K K a S C m * proj K K b S C m = sandwich K a F b := by
  rw [← expand h a b F]
  refine Finset.sum_congr rfl fun m hm => ?_
  rw [proj_eq K a, Finset.mul_sum]
  congr 1
  refine Finset.sum_congr rfl fun p hp => ?_
  rw [hF m p (mem_Icc.1 hm).1 (mem_Icc.1 hm).2 (mem_Icc.1 hp).1 (mem_Icc.1 hp).2]
  ring

/-- The sum over dimer orbitals is the overlap. -/
theorem overlap_sum {K : Int} {S C : Int → Int → α} (h : Orthonormal K S C) (a b : Int → α) :
    ∑ m ∈ Icc 1 K, proj K K a S C m * proj K K b S C m = sandwich K a S b := by
  rw [← expand h a b S]
  refine Finset.sum_congr rfl fun m hm => ?_
  rw [proj_eq K a]

/-- Two readings of the same matrix agree. -/
theorem Values.agree {m : Mat α} {r c r' c' : Int} {f g : Int → Int → α} (h : Values m r c f) (h' : Values m r' c' g) {i j : Int}
    (hi : 1 ≤ i) (hi' : i ≤ r) (hj : 1 ≤ j) (hj' : j ≤ c) : f i j = g i j := by
  have e1 := h.val i j hi hi' hj hj'
  rw [h'.val i j hi (by rw [← h'.rows, h.rows]; exact hi') hj (by rw [← h'.cols, h.cols]; exact hj')] at e1
  exact (Res.ok.inj e1).symm

/-- The report in terms of any reading of the matrices. -/
theorem IsReport.values {cp : Bool} {coef1 coef2 coefP S : Mat α} {E : List α} {row1 row2 : Int} {r : Report α}
    (h : IsReport cp coef1 coef2 coefP S E row1 row2 r) {N1 n1 N2 n2 M N K : Int} {c1 c2 C s : Int → Int → α}
    (h1 : Values coef1 N1 n1 c1) (h2 : Values coef2 N2 n2 c2) (hP : Values coefP M N C) (hS : Values S K N s) :
    Conforming cp n1 n2 K ∧ r = QC.reportOf M (proj K N (zetaA cp n1 (c1 row1)) s C) (proj K N (zetaB cp n1 (c2 row2)) s C)
      (fun m => E.getD (m - 1).toNat 0) := by
  obtain ⟨N1', n1', N2', n2', M', N', K', c1', c2', C', s', h1', h2', hP', hS', hl, hc, l1, l2, l3, l4, rfl⟩ := h
  obtain rfl : N1 = N1' := h1.rows.symm.trans h1'.rows
  obtain rfl : n1 = n1' := h1.cols.symm.trans h1'.cols
  obtain rfl : N2 = N2' := h2.rows.symm.trans h2'.rows
  obtain rfl : n2 = n2' := h2.cols.symm.trans h2'.cols
  obtain rfl : M = M' := hP.rows.symm.trans hP'.rows
  obtain rfl : N = N' := hP.cols.symm.trans hP'.cols
  obtain rfl : K = K' := hS.rows.symm.trans hS'.rows
  refine ⟨hc, ?_⟩
  have ga : ∀ m ∈ Icc 1 M, proj K N (zetaA cp n1 (c1' row1)) s' C' m = proj K N (zetaA cp n1 (c1 row1)) s C m := by
    intro m hm
    refine Finset.sum_congr rfl fun p hp => Finset.sum_congr rfl fun q hq => ?_
    rw [mem_Icc] at hm hp hq
    rw [Values.agree hS' hS hp.1 hp.2 hq.1 hq.2, Values.agree hP' hP hm.1 hm.2 hq.1 hq.2]
    congr 2
    unfold zetaA
    cases cp with
    | true =>
      obtain ⟨hc1, hc2⟩ : n1 = K ∧ n2 = K := by simpa [Conforming] using hc
      exact Values.agree h1' h1 l1 l2 hp.1 (by omega)
    | false =>
      have hc' : n1 + n2 = K := by simpa [Conforming] using hc
      by_cases hpn : p ≤ n1
      · simp only [Bool.false_eq_true, if_false, if_pos hpn]
        exact Values.agree h1' h1 l1 l2 hp.1 hpn
      · simp only [Bool.false_eq_true, if_false, if_neg hpn]
  have gb : ∀ m ∈ Icc 1 M, proj K N (zetaB cp n1 (c2' row2)) s' C' m = proj K N (zetaB cp n1 (c2 row2)) s C m := by
    intro m hm
    refine Finset.sum_congr rfl fun p hp => Finset.sum_congr rfl fun q hq => ?_
    rw [mem_Icc] at hm hp hq
    rw [Values.agree hS' hS hp.1 hp.2 hq.1 hq.2, Values.agree hP' hP hm.1 hm.2 hq.1 hq.2]
    congr 2
    unfold zetaB
    cases cp with
    | true =>
      obtain ⟨hc1, hc2⟩ : n1 = K ∧ n2 = K := by simpa [Conforming] using hc
      exact Values.agree h2' h2 l3 l4 hp.1 (by omega)
    | false =>
      have hc' : n1 + n2 = K := by simpa [Conforming] using hc
      by_cases hpn : p ≤ n1
      · simp only [Bool.false_eq_true, if_false, if_pos hpn]
      · simp only [Bool.false_eq_true, if_false, if_neg hpn]
        exact Values.agree h2' h2 l3 l4 (by omega) (by omega)
  have j : ∀ E : Int → α, couplingJ M (proj K N (zetaA cp n1 (c1' row1)) s' C') (proj K N (zetaB cp n1 (c2' row2)) s' C') E =
      couplingJ M (proj K N (zetaA cp n1 (c1 row1)) s C) (proj K N (zetaB cp n1 (c2 row2)) s C) E := fun E =>
    Finset.sum_congr rfl fun m hm => by rw [ga m hm, gb m hm]
  have a : ∀ E : Int → α, siteEnergy M (proj K N (zetaA cp n1 (c1' row1)) s' C') E = siteEnergy M (proj K N (zetaA cp n1 (c1 row1)) s C) E :=
    fun E => Finset.sum_congr rfl fun m hm => by rw [ga m hm]
  have b : ∀ E : Int → α, siteEnergy M (proj K N (zetaB cp n1 (c2' row2)) s' C') E = siteEnergy M (proj K N (zetaB cp n1 (c2 row2)) s C) E :=
    fun E => Finset.sum_congr rfl fun m hm => by rw [gb m hm]
  have o : overlapAB M (proj K N (zetaA cp n1 (c1' row1)) s' C') (proj K N (zetaB cp n1 (c2' row2)) s' C') =
      overlapAB M (proj K N (zetaA cp n1 (c1 row1)) s C) (proj K N (zetaB cp n1 (c2 row2)) s C) :=
    Finset.sum_congr rfl fun m hm => by rw [ga m hm, gb m hm]
  unfold QC.reportOf QC.coupling
  rw [j, a, b, o]

/-- The numbers of a report on a full set of orthonormal orbitals, in terms of the Fock matrix. -/
theorem reportOf_fock {K : Int} {F s C : Int → Int → α} {E : Int → α} (ho : Orthonormal K s C) (hF : Roothaan K F s C E) (a b : Int → α) :
    QC.reportOf K (proj K K a s C) (proj K K b s C) E = fockReport K a b F s := by
  have k1 : couplingJ K (proj K K a s C) (proj K K b s C) E = sandwich K a F b := by
    rw [← fock_sum ho hF]
    exact Finset.sum_congr rfl fun m _ => by ring
  have k2 : ∀ a, siteEnergy K (proj K K a s C) E = sandwich K a F a := by
    intro a
    rw [← fock_sum ho hF]
    exact Finset.sum_congr rfl fun m _ => by ring
  have k4 : overlapAB K (proj K K a s C) (proj K K b s C) = sandwich K a s b := by
    rw [← overlap_sum ho]
    exact Finset.sum_congr rfl fun m _ => by ring
  unfold QC.reportOf QC.coupling fockReport
  rw [k1, k2, k2, k4]

/-- C132 (Fock): the orbitals of the dimer need not be looked at one by one. If they are as many orthonormal orbitals as basis functions and
solve the Roothaan equations of a matrix `F`, then the numbers are the matrix elements of `F` and of the overlap between the two monomer
orbitals. -/
theorem C132_fock {coef1 coef2 coefP S oe : Mat α} {cp : Bool} {n1 n2 K : Int} {u v : Int → α} {C s : Int → Int → α} {E : Int → α}
    (h1 : Values coef1 1 n1 (fun _ j => u j)) (h2 : Values coef2 1 n2 (fun _ j => v j)) (hP : Values coefP K K C)
    (hS : Values S K K s) (hE : VectorOf oe K E) (hc : Conforming cp n1 n2 K) (ho : Orthonormal K s C)
    {F : Int → Int → α} (hF : Roothaan K F s C E) :
    transferReport coef1 coef2 coefP S oe cp = .ok (fockReport K (zetaA cp n1 u) (zetaB cp n1 v) F s) ∧
    calculateTransferIntegral coef1 coef2 coefP S oe cp = .ok (fockReport K (zetaA cp n1 u) (zetaB cp n1 v) F s).jeff := by
  have e := report_eq h1 h2 hP hS hE hc
  have e' : transferReport coef1 coef2 coefP S oe cp = .ok (fockReport K (zetaA cp n1 u) (zetaB cp n1 v) F s) := by
    rw [e]
    exact congrArg Res.ok (reportOf_fock ho hF _ _)
  exact ⟨e', calculate_of_report e'⟩

section
variable {β : Type} [Num α] [DecidableEq β] {D : Type} [Args.Dbl D]

/-- The tables `C`, `s`, `E` of the dimer are a full set of orthonormal solutions for `F`, and the report is that of `F`. -/
theorem IsReport.fock {cp : Bool} {coef1 coef2 coefP S : Mat α} {E : List α} {row1 row2 : Int} {r : Report α}
    (h : IsReport cp coef1 coef2 coefP S E row1 row2 r) : FockMeaning cp coef1 coef2 coefP S E row1 row2 r := by
  intro N1 n1 N2 n2 K c1 c2 C s F h1 h2 hP hS ho hF
  obtain ⟨-, rfl⟩ := IsReport.values h h1 h2 hP hS
  exact reportOf_fock ho hF _ _

/-- C132 (calc_J): the same for every run of calc_J that ends normally, of the tables the readers found (after the dimer's atoms were
matched, if the populations were in the files). -/
theorem C132_run (tos : α → β) (files : Str → Option Str) (fuel : Nat) (args : List Str) {par : Params.Params} {r : Report α}
    (h : calcJRun D tos files fuel args = .ok (par, r)) :
    ∃ (prP pr1 pr2 : PunData α) (lrP lr1 lr2 : LogData α),
      readPun files fuel par.punP = .ok prP ∧ readPun files fuel par.pun1 = .ok pr1 ∧ readPun files fuel par.pun2 = .ok pr2 ∧
      readLog files fuel par.logP = .ok lrP ∧ readLog files fuel par.log1 = .ok lr1 ∧ readLog files fuel par.log2 = .ok lr2 ∧
      ∃ S coefP coef1 coef2 eP e1 e2 homo1 homo2 row1 row2,
        lrP.getOverlapMatrix = .ok S ∧ prP.getCoefsMatrix par.spinP = .ok coefP ∧ pr1.getCoefsMatrix par.spin1 = .ok coef1 ∧
        pr2.getCoefsMatrix par.spin2 = .ok coef2 ∧ lrP.getOE par.spinP = .ok eP ∧ lr1.getOE par.spin1 = .ok e1 ∧
        lr2.getOE par.spin2 = .ok e2 ∧ lr1.getHOMOLevel par.spin1 = .ok homo1 ∧ lr2.getHOMOLevel par.spin2 = .ok homo2 ∧
        NamesOrbital (e1.length, homo1) par.orbType1 par.orbNum1 row1 ∧ NamesOrbital (e2.length, homo2) par.orbType2 par.orbNum2 row2 ∧
        (¬ HavePopulations lrP lr1 lr2 → FockMeaning par.counterPoise coef1 coef2 coefP S eP row1 row2 r) ∧
        (HavePopulations lrP lr1 lr2 → ∃ (x1 x2 xP : Mat α) (T T' : TransferComplex α), ofVecVec lr1.getCoords = .ok x1 ∧
          ofVecVec lr2.getCoords = .ok x2 ∧ ofVecVec lrP.getCoords = .ok xP ∧ T.coef2 = coef2 ∧ T.coefP = coefP ∧ T.S = S ∧
          T.cp = par.counterPoise ∧ T.unscramble tos x1 x2 xP lrP.getBasisFuncCount lr2.getBasisFuncCount = .ok T' ∧
          FockMeaning par.counterPoise coef1 T'.coef2 T'.coefP T'.S eP row1 row2 r) := by
  obtain ⟨q, h1, h2, h3, prP, pr1, pr2, lrP, lr1, lr2, g1, g2, g3, g4, g5, g6, S, coefP, coef1, coef2, eP, e1, e2, homo1, homo2, row1, row2,
    k1, k2, k3, k4, k5, k6, k7, k8, k9, k10, k11, k12, k13⟩ := C82_sound tos files fuel args h
  refine ⟨prP, pr1, pr2, lrP, lr1, lr2, g1, g2, g3, g4, g5, g6, S, coefP, coef1, coef2, eP, e1, e2, homo1, homo2, row1, row2,
    k1, k2, k3, k4, k5, k6, k7, k8, k9, k10, k11, ?_, ?_⟩
  · exact fun hn => IsReport.fock (k12 hn)
  · intro hp
    obtain ⟨x1, x2, xP, T, T', a1, a2, a3, a4, a5, a6, a7, a8, a9⟩ := k13 hp
    exact ⟨x1, x2, xP, T, T', a1, a2, a3, a4, a5, a6, a7, a8, IsReport.fock a9⟩

end
end

section loewdin
variable {α : Type} [Field α] [LinearOrder α] [IsStrictOrderedRing α]

/-- The equations of `X O X = 1`, entry by entry. -/
theorem Loewdin.entries {s : α} {X : Matrix (Fin 2) (Fin 2) α} (h : Loewdin s X) :
    X 1 1 = X 0 0 ∧ X 1 0 = X 0 1 ∧ (X 0 0 ^ 2 + X 0 1 ^ 2) * (1 - s ^ 2) = 1 ∧ 2 * X 0 0 * X 0 1 * (1 - s ^ 2) = -s := by
  obtain ⟨hs, hp, hd, h1⟩ := h
  have e : ∀ i j, (X * pairOverlap s * X) i j = (1 : Matrix (Fin 2) (Fin 2) α) i j := fun i j => by rw [h1]
  have e00 := e 0 0
  have e01 := e 0 1
  have e11 := e 1 1
  simp only [pairOverlap, Matrix.mul_apply, Fin.sum_univ_two, Matrix.of_apply, Matrix.cons_val', Matrix.cons_val_zero, Matrix.cons_val_one,
    Matrix.cons_val_fin_one, Matrix.one_apply, if_true, if_false, mul_one, hs, Fin.isValue, zero_ne_one] at e00 e01 e11
  rw [hs] at hd
  clear e h1
  generalize X 0 0 = p at *
  generalize X 0 1 = q at *
  generalize X 1 1 = r at *
  have hr : 0 < r := by
    have : 0 < p * r := by nlinarith [mul_self_nonneg q]
    exact (mul_pos_iff_of_pos_left hp).1 this
  have hz : (p - r) * (p + r + 2 * q * s) = 0 := by linear_combination e00 - e11
  obtain hpr | hpr := mul_eq_zero.1 hz
  · obtain rfl : p = r := sub_eq_zero.1 hpr
    refine ⟨rfl, hs, ?_, ?_⟩
    · linear_combination e00 - s * e01
    · linear_combination (1 - s ^ 2) * e01 - s * (e00 - s * e01)
  · exfalso
    have h0 : s * (p * r - q * q) = 0 := by linear_combination e01 - q * hpr
    obtain h0 | h0 := mul_eq_zero.1 h0
    · rw [h0] at hpr
      nlinarith
    · exact absurd h0 hd.ne'

/-- C132 (Loewdin): the number is the coupling of the two orbitals made orthonormal by Loewdin's symmetric transformation. -/
theorem C132_loewdin {s ea eb j : α} {X : Matrix (Fin 2) (Fin 2) α} (h : Loewdin s X) :
    (X * pairEnergy ea eb j * X) 0 1 = (j - (ea + eb) * s / 2) / (1 - s ^ 2) ∧
    (X * pairEnergy ea eb j * X) 1 0 = (j - (ea + eb) * s / 2) / (1 - s ^ 2) := by
  obtain ⟨e1, e2, e3, e4⟩ := Loewdin.entries h
  have h0 : 1 - s ^ 2 ≠ 0 := fun h0 => by rw [h0, mul_zero] at e3; exact zero_ne_one e3
  simp only [pairEnergy, Matrix.mul_apply, Fin.sum_univ_two, Matrix.of_apply, Matrix.cons_val', Matrix.cons_val_zero, Matrix.cons_val_one,
    Matrix.cons_val_fin_one, e1, e2, Fin.isValue]
  constructor
  · rw [eq_div_iff h0]
    linear_combination j * e3 + (ea + eb) / 2 * e4
  · rw [eq_div_iff h0]
    linear_combination j * e3 + (ea + eb) / 2 * e4

/-- An orbital is known from its projections. -/
theorem recover {α : Type} [Field α] {K : Int} {S C : Int → Int → α} (h : Orthonormal K S C) (a : Int → α) {q : Int} (hq : 1 ≤ q) (hq' : q ≤ K) :
    ∑ m ∈ Icc 1 K, proj K K a S C m * C m q = a q := by
  calc ∑ m ∈ Icc 1 K, proj K K a S C m * C m q
      = ∑ m ∈ Icc 1 K, ∑ p ∈ Icc 1 K, a p * ((∑ r ∈ Icc 1 K, S p r * C m r) * C m q) := by
        refine Finset.sum_congr rfl fun m _ => ?_
        rw [proj_eq, Finset.sum_mul]
        exact Finset.sum_congr rfl fun p _ => by ring
    _ = ∑ p ∈ Icc 1 K, a p * ∑ m ∈ Icc 1 K, (∑ r ∈ Icc 1 K, S p r * C m r) * C m q := by
        rw [Finset.sum_comm]
        refine Finset.sum_congr rfl fun p _ => ?_
        rw [Finset.mul_sum]
    _ = a q := by
        rw [Finset.sum_eq_single q]
        · rw [Orthonormal.complete h hq hq' hq hq', if_pos rfl, mul_one]
        · intro r hr hne
          rw [Orthonormal.complete h (mem_Icc.1 hr).1 (mem_Icc.1 hr).2 hq hq', if_neg hne, mul_zero]
        · exact fun hn => absurd (mem_Icc.2 ⟨hq, hq'⟩) hn

/-- Cauchy and Schwarz. -/
theorem overlap_bound {K : Int} {S C : Int → Int → α} (h : Orthonormal K S C) {a b : Int → α} (ha : sandwich K a S a = 1)
    (hb : sandwich K b S b = 1) : sandwich K a S b ^ 2 ≤ 1 ∧
      (sandwich K a S b ^ 2 = 1 ↔ (∀ p, 1 ≤ p → p ≤ K → a p = b p) ∨ (∀ p, 1 ≤ p → p ≤ K → a p = -b p)) := by
  have e : ∑ m ∈ Icc 1 K, (proj K K a S C m - sandwich K a S b * proj K K b S C m) ^ 2 = 1 - sandwich K a S b ^ 2 := by
    have : ∀ m ∈ Icc 1 K, (proj K K a S C m - sandwich K a S b * proj K K b S C m) ^ 2 =
        proj K K a S C m * proj K K a S C m - 2 * sandwich K a S b * (proj K K a S C m * proj K K b S C m) +
        sandwich K a S b ^ 2 * (proj K K b S C m * proj K K b S C m) := fun m _ => by ring
    rw [Finset.sum_congr rfl this, Finset.sum_add_distrib, Finset.sum_sub_distrib, ← Finset.mul_sum, ← Finset.mul_sum, overlap_sum h,
      overlap_sum h, overlap_sum h, ha, hb]
    ring
  have h0 : 0 ≤ ∑ m ∈ Icc 1 K, (proj K K a S C m - sandwich K a S b * proj K K b S C m) ^ 2 := Finset.sum_nonneg fun _ _ => sq_nonneg _
  refine ⟨by linarith, fun h1 => ?_, ?_⟩
  · rw [h1, sub_self, Finset.sum_eq_zero_iff_of_nonneg fun _ _ => sq_nonneg _] at e
    have ab : ∀ p, 1 ≤ p → p ≤ K → a p = sandwich K a S b * b p := by
      intro p hp hp'
      rw [← recover h a hp hp', ← recover h b hp hp', Finset.mul_sum]
      refine Finset.sum_congr rfl fun m hm => ?_
      have := e m hm
      rw [sq_eq_zero_iff, sub_eq_zero] at this
      rw [this]
      ring
    rcases sq_eq_one_iff.1 h1 with k | k
    · exact .inl fun p hp hp' => by rw [ab p hp hp', k, one_mul]
    · exact .inr fun p hp hp' => by rw [ab p hp hp', k, neg_one_mul]
  · rintro (k | k)
    · have : sandwich K a S b = sandwich K a S a := Finset.sum_congr rfl fun p hp => Finset.sum_congr rfl fun q hq => by
        rw [k q (mem_Icc.1 hq).1 (mem_Icc.1 hq).2]
      rw [this, ha, one_pow]
    · have : sandwich K a S b = -sandwich K a S a := by
        unfold sandwich
        rw [← Finset.sum_neg_distrib]
        refine Finset.sum_congr rfl fun p hp => ?_
        rw [← Finset.sum_neg_distrib]
        refine Finset.sum_congr rfl fun q hq => ?_
        rw [k q (mem_Icc.1 hq).1 (mem_Icc.1 hq).2]
        ring
      rw [this, ha]
      ring

/-- C132 (well defined): for normalised monomer orbitals and a full orthonormal set of dimer orbitals the overlap printed is at most one in
size, and the division by `1 - S²` is a division by zero only if the two monomer orbitals are the same up to sign. -/
theorem C132_defined {coef1 coef2 coefP S oe : Mat α} {cp : Bool} {n1 n2 K : Int} {u v : Int → α} {C s : Int → Int → α} {E : Int → α}
    (h1 : Values coef1 1 n1 (fun _ j => u j)) (h2 : Values coef2 1 n2 (fun _ j => v j)) (hP : Values coefP K K C)
    (hS : Values S K K s) (hE : VectorOf oe K E) (hc : Conforming cp n1 n2 K) (ho : Orthonormal K s C)
    (ha : sandwich K (zetaA cp n1 u) s (zetaA cp n1 u) = 1) (hb : sandwich K (zetaB cp n1 v) s (zetaB cp n1 v) = 1) :
    ∃ r, transferReport coef1 coef2 coefP S oe cp = .ok r ∧ r.sab ^ 2 ≤ 1 ∧
      (1 - r.sab ^ 2 = 0 ↔ (∀ p, 1 ≤ p → p ≤ K → zetaA cp n1 u p = zetaB cp n1 v p) ∨
        (∀ p, 1 ≤ p → p ≤ K → zetaA cp n1 u p = -zetaB cp n1 v p)) := by
  obtain ⟨r, hr, -, -, -, e4, -⟩ := C82_numbers h1 h2 hP hS hE hc
  have k4 : r.sab = sandwich K (zetaA cp n1 u) s (zetaB cp n1 v) := by
    rw [e4, ← overlap_sum ho]
    exact Finset.sum_congr rfl fun m _ => by ring
  obtain ⟨b1, b2⟩ := overlap_bound ho ha hb
  refine ⟨r, hr, k4 ▸ b1, ?_⟩
  rw [k4, sub_eq_zero, eq_comm]
  exact b2

/-- The algebra of two orbitals in a plane. -/
theorem plane {α : Type} [Field α] {x1 x2 y1 y2 E1 E2 : α} (two : (2 : α) ≠ 0) (hx : x1 ^ 2 + x2 ^ 2 = 1) (hy : y1 ^ 2 + y2 ^ 2 = 1)
    (hs : 1 - (y1 * x1 + y2 * x2) ^ 2 ≠ 0) :
    (E1 - E2) ^ 2 = 4 * ((y1 * E1 * x1 + y2 * E2 * x2 - (x1 ^ 2 * E1 + x2 ^ 2 * E2 + (y1 ^ 2 * E1 + y2 ^ 2 * E2)) * (y1 * x1 + y2 * x2) / 2) /
        (1 - (y1 * x1 + y2 * x2) ^ 2)) ^ 2 +
      (x1 ^ 2 * E1 + x2 ^ 2 * E2 - (y1 ^ 2 * E1 + y2 ^ 2 * E2)) ^ 2 / (1 - (y1 * x1 + y2 * x2) ^ 2) := by
  have hD : 1 - (y1 * x1 + y2 * x2) ^ 2 = (x1 * y2 - x2 * y1) ^ 2 := by linear_combination -(y1 ^ 2 + y2 ^ 2) * hx - hy
  have hN : 2 * (y1 * E1 * x1 + y2 * E2 * x2 - (x1 ^ 2 * E1 + x2 ^ 2 * E2 + (y1 ^ 2 * E1 + y2 ^ 2 * E2)) * (y1 * x1 + y2 * x2) / 2) =
      (E1 - E2) * ((x1 * y2 - x2 * y1) ^ 2 * (x1 * y1 - x2 * y2)) := by
    have e : 2 * (y1 * E1 * x1 + y2 * E2 * x2 - (x1 ^ 2 * E1 + x2 ^ 2 * E2 + (y1 ^ 2 * E1 + y2 ^ 2 * E2)) * (y1 * x1 + y2 * x2) / 2) =
        2 * (y1 * E1 * x1 + y2 * E2 * x2) - (x1 ^ 2 * E1 + x2 ^ 2 * E2 + (y1 ^ 2 * E1 + y2 ^ 2 * E2)) * (y1 * x1 + y2 * x2) := by
      field_simp
    rw [e]
    linear_combination
      (E1 * (-(2 * x1 * y1 - y1 ^ 2 * (y1 * x1 + y2 * x2))) + E2 * (-(2 * x2 * y2 - y2 ^ 2 * (y1 * x1 + y2 * x2)))) * hx +
      (E1 * (-(2 * x1 * y1 * (x1 ^ 2 + x2 ^ 2) - x1 ^ 2 * (y1 * x1 + y2 * x2))) +
        E2 * (-(2 * x2 * y2 * (x1 ^ 2 + x2 ^ 2) - x2 ^ 2 * (y1 * x1 + y2 * x2)))) * hy
  have hM : x1 ^ 2 * E1 + x2 ^ 2 * E2 - (y1 ^ 2 * E1 + y2 ^ 2 * E2) = (E1 - E2) * ((x1 * y2 - x2 * y1) * (x1 * y2 + x2 * y1)) := by
    linear_combination (E1 * y1 ^ 2 + E2 * y2 ^ 2) * hx - (E1 * x1 ^ 2 + E2 * x2 ^ 2) * hy
  have h1 : (x1 * y1 - x2 * y2) ^ 2 + (x1 * y2 + x2 * y1) ^ 2 = 1 := by linear_combination (y1 ^ 2 + y2 ^ 2) * hx + hy
  rw [hD] at hs ⊢
  rw [hM]
  generalize (y1 * E1 * x1 + y2 * E2 * x2 - (x1 ^ 2 * E1 + x2 ^ 2 * E2 + (y1 ^ 2 * E1 + y2 ^ 2 * E2)) * (y1 * x1 + y2 * x2) / 2) = N at hN ⊢
  have hd : x1 * y2 - x2 * y1 ≠ 0 := fun h => hs (by rw [h]; ring)
  generalize x1 * y2 - x2 * y1 = d at *
  have e : 4 * (N / d ^ 2) ^ 2 = (2 * N) ^ 2 / (d ^ 2) ^ 2 := by ring
  rw [e, hN]
  field_simp
  linear_combination -(E1 - E2) ^ 2 * h1

/-- C132 (splitting): if the dimer has just two orbitals, and the monomer orbitals are normalised in them, the coupling is known from the
splitting of the two energies: `(E₁ - E₂)² = 4 J² + (e_a - e_b)² / (1 - S²)`. So for two equal molecules it is half the splitting. -/
theorem C132_splitting {coef1 coef2 coefP S oe : Mat α} {cp : Bool} {n1 n2 N K : Int} {u v : Int → α} {C s : Int → Int → α} {E : Int → α}
    (h1 : Values coef1 1 n1 (fun _ j => u j)) (h2 : Values coef2 1 n2 (fun _ j => v j)) (hP : Values coefP 2 N C)
    (hS : Values S K N s) (hE : VectorOf oe 2 E) (hc : Conforming cp n1 n2 K)
    (ha : proj K N (zetaA cp n1 u) s C 1 ^ 2 + proj K N (zetaA cp n1 u) s C 2 ^ 2 = 1)
    (hb : proj K N (zetaB cp n1 v) s C 1 ^ 2 + proj K N (zetaB cp n1 v) s C 2 ^ 2 = 1) :
    ∃ r, transferReport coef1 coef2 coefP S oe cp = .ok r ∧ calculateTransferIntegral coef1 coef2 coefP S oe cp = .ok r.jeff ∧
      (r.sab ^ 2 ≠ 1 → (E 1 - E 2) ^ 2 = 4 * r.jeff ^ 2 + (r.ea - r.eb) ^ 2 / (1 - r.sab ^ 2) ∧
        (r.ea = r.eb → |r.jeff| = |E 1 - E 2| / 2)) := by
  obtain ⟨r, hr, e1, e2, e3, e4, e5, e6⟩ := C82_numbers h1 h2 hP hS hE hc
  refine ⟨r, hr, e6, fun hs => ?_⟩
  have i2 : Icc (1 : Int) 2 = {1, 2} := by decide
  have ne : (1 : Int) ≠ 2 := by decide
  have key : (E 1 - E 2) ^ 2 = 4 * r.jeff ^ 2 + (r.ea - r.eb) ^ 2 / (1 - r.sab ^ 2) := by
    have hs' : 1 - r.sab ^ 2 ≠ 0 := fun h => hs (sub_eq_zero.1 h).symm
    rw [e4] at hs'
    rw [e5, e2, e3, e4]
    unfold QC.coupling
    simp only [overlapAB, siteEnergy, couplingJ, i2, Finset.sum_pair ne] at hs' ⊢
    exact plane two_ne_zero ha hb hs'
  refine ⟨key, fun hab => ?_⟩
  rw [hab, sub_self] at key
  have : |r.jeff| ^ 2 = (|E 1 - E 2| / 2) ^ 2 := by
    rw [div_pow, sq_abs, sq_abs, key]
    ring
  exact (sq_eq_sq₀ (abs_nonneg _) (by positivity)).1 this

end loewdin

section real

/-- Loewdin's matrix exists and is unique as soon as the states are different. -/
theorem loewdin_exists {s : ℝ} (hs : s ^ 2 < 1) : ∃! X, Loewdin s X := by
  have h1 : 0 < 1 + s := by nlinarith [sq_nonneg (1 - s), sq_nonneg (1 + s)]
  have h2 : 0 < 1 - s := by nlinarith [sq_nonneg (1 - s), sq_nonneg (1 + s)]
  set c := (Real.sqrt (1 + s))⁻¹ with hc
  set d := (Real.sqrt (1 - s))⁻¹ with hd
  have c0 : 0 < c := inv_pos.2 (Real.sqrt_pos.2 h1)
  have d0 : 0 < d := inv_pos.2 (Real.sqrt_pos.2 h2)
  have c2 : c ^ 2 * (1 + s) = 1 := by rw [hc, inv_pow, Real.sq_sqrt h1.le]; exact inv_mul_cancel₀ h1.ne'
  have d2 : d ^ 2 * (1 - s) = 1 := by rw [hd, inv_pow, Real.sq_sqrt h2.le]; exact inv_mul_cancel₀ h2.ne'
  refine ⟨!![(c + d) / 2, (c - d) / 2; (c - d) / 2, (c + d) / 2], ⟨rfl, ?_, ?_, ?_⟩, ?_⟩
  · show 0 < (c + d) / 2
    linarith
  · show 0 < (c + d) / 2 * ((c + d) / 2) - (c - d) / 2 * ((c - d) / 2)
    nlinarith [mul_pos c0 d0]
  · ext i j
    fin_cases i <;> fin_cases j <;>
      simp [pairOverlap, Matrix.mul_apply, Fin.sum_univ_two] <;>
      first
      | linear_combination (c2 + d2) / 2
      | linear_combination (c2 - d2) / 2
  · intro X hX
    obtain ⟨e1, e2, e3, e4⟩ := Loewdin.entries hX
    have hp := hX.pos
    have hdet := hX.det
    rw [e1, e2] at hdet
    have p1 : 0 < X 0 0 + X 0 1 := by nlinarith
    have p2 : 0 < X 0 0 - X 0 1 := by nlinarith
    have k1 : X 0 0 + X 0 1 = c := by
      refine (sq_eq_sq₀ p1.le c0.le).1 ?_
      have : ((X 0 0 + X 0 1) ^ 2 - c ^ 2) * ((1 - s) * (1 + s)) = 0 := by linear_combination e3 + e4 - (1 - s) * c2
      rcases mul_eq_zero.1 this with k | k
      · exact sub_eq_zero.1 k
      · exact absurd k (mul_pos h2 h1).ne'
    have k2 : X 0 0 - X 0 1 = d := by
      refine (sq_eq_sq₀ p2.le d0.le).1 ?_
      have : ((X 0 0 - X 0 1) ^ 2 - d ^ 2) * ((1 - s) * (1 + s)) = 0 := by linear_combination e3 - e4 - (1 + s) * d2
      rcases mul_eq_zero.1 this with k | k
      · exact sub_eq_zero.1 k
      · exact absurd k (mul_pos h2 h1).ne'
    ext i j
    fin_cases i <;> fin_cases j
    · show X 0 0 = (c + d) / 2
      linarith
    · show X 0 1 = (c - d) / 2
      linarith
    · show X 1 0 = (c - d) / 2
      rw [e2]
      linarith
    · show X 1 1 = (c + d) / 2
      rw [e1]
      linarith

/-- C132 (the number returned): over the real numbers, whenever the overlap of the two orbitals is less than one in size, there is exactly one
symmetric positive definite matrix `X = O^(-1/2)` that makes them orthonormal, and the number returned is the off-diagonal element of their
energies `X H X`. -/
theorem C132_returned {coef1 coef2 coefP S oe : Mat ℝ} {cp : Bool} {n1 n2 M N K : Int} {u v : Int → ℝ} {C s : Int → Int → ℝ} {E : Int → ℝ}
    (h1 : Values coef1 1 n1 (fun _ j => u j)) (h2 : Values coef2 1 n2 (fun _ j => v j)) (hP : Values coefP M N C)
    (hS : Values S K N s) (hE : VectorOf oe M E) (hc : Conforming cp n1 n2 K) :
    ∃ r, transferReport coef1 coef2 coefP S oe cp = .ok r ∧ (r.sab ^ 2 < 1 → (∃! X, Loewdin r.sab X) ∧
      ∀ X, Loewdin r.sab X → calculateTransferIntegral coef1 coef2 coefP S oe cp = .ok ((X * pairEnergy r.ea r.eb r.jab * X) 0 1)) := by
  obtain ⟨r, hr, e1, e2, e3, e4, e5, e6⟩ := C82_numbers h1 h2 hP hS hE hc
  refine ⟨r, hr, fun hs => ⟨loewdin_exists hs, fun X hX => ?_⟩⟩
  rw [e6, (C132_loewdin hX).1, e5, e1, e2, e3, e4]
  rfl

end real
end Verif
