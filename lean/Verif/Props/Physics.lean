import Verif.Spec.Physics
import Verif.Props.Fock
/-
C136: the basis functions do not matter. C137: nor does the choice of the dimer's orbitals. C138: the coupling is half a difference of mean
energies.
-/
namespace Verif
open Strings Readers QC Mat Finset

section
variable {α : Type} [Field α]

/-- The projection of an orbital on an orbital is the same with other functions. -/
theorem proj_basis {K K' : Int} {T s s' C C' : Int → Int → α} {z z' : Int → α} {m : Int} (hs : NewOverlap K K' T s s') (hz : SameOrbital K K' T z z')
    (hC : SameOrbital K K' T (C m) (C' m)) : proj K' K' z' s' C' m = proj K K z s C m := by
  unfold proj
  calc ∑ p ∈ Icc 1 K', ∑ q ∈ Icc 1 K', z' p * s' p q * C' m q
      = ∑ p ∈ Icc 1 K', ∑ q ∈ Icc 1 K', ∑ r ∈ Icc 1 K, ∑ t ∈ Icc 1 K, (z' p * T p r) * s r t * (C' m q * T q t) := by
        refine Finset.sum_congr rfl fun p hp => Finset.sum_congr rfl fun q hq => ?_
        rw [mem_Icc] at hp hq
        rw [hs p q hp.1 hp.2 hq.1 hq.2, Finset.mul_sum, Finset.sum_mul]
        refine Finset.sum_congr rfl fun r _ => ?_
        rw [Finset.mul_sum, Finset.sum_mul]
        exact Finset.sum_congr rfl fun t _ => by ring
    _ = ∑ r ∈ Icc 1 K, ∑ t ∈ Icc 1 K, ∑ p ∈ Icc 1 K', ∑ q ∈ Icc 1 K', (z' p * T p r) * s r t * (C' m q * T q t) := by
        rw [Finset.sum_congr rfl fun p _ => Finset.sum_comm, Finset.sum_comm]
        refine Finset.sum_congr rfl fun r _ => ?_
        rw [Finset.sum_congr rfl fun p _ => Finset.sum_comm, Finset.sum_comm]
    _ = ∑ r ∈ Icc 1 K, ∑ t ∈ Icc 1 K, z r * s r t * C m t := by
        refine Finset.sum_congr rfl fun r hr => Finset.sum_congr rfl fun t ht => ?_
        rw [mem_Icc] at hr ht
        rw [hz r hr.1 hr.2, hC t ht.1 ht.2, Finset.sum_mul, Finset.sum_mul]
        refine Finset.sum_congr rfl fun p _ => ?_
        rw [Finset.mul_sum]

/-- Only the projections matter. -/
theorem reportOf_congr {M : Int} {gA gB gA' gB' E E' : Int → α} (ha : ∀ m, 1 ≤ m → m ≤ M → gA' m = gA m) (hb : ∀ m, 1 ≤ m → m ≤ M → gB' m = gB m)
    (he : ∀ m, 1 ≤ m → m ≤ M → E' m = E m) : QC.reportOf M gA' gB' E' = QC.reportOf M gA gB E := by
  have j : couplingJ M gA' gB' E' = couplingJ M gA gB E := Finset.sum_congr rfl fun m hm => by
    rw [mem_Icc] at hm; rw [ha m hm.1 hm.2, hb m hm.1 hm.2, he m hm.1 hm.2]
  have a : siteEnergy M gA' E' = siteEnergy M gA E := Finset.sum_congr rfl fun m hm => by
    rw [mem_Icc] at hm; rw [ha m hm.1 hm.2, he m hm.1 hm.2]
  have b : siteEnergy M gB' E' = siteEnergy M gB E := Finset.sum_congr rfl fun m hm => by
    rw [mem_Icc] at hm; rw [hb m hm.1 hm.2, he m hm.1 hm.2]
  have o : overlapAB M gA' gB' = overlapAB M gA gB := Finset.sum_congr rfl fun m hm => by
    rw [mem_Icc] at hm; rw [ha m hm.1 hm.2, hb m hm.1 hm.2]
  unfold QC.reportOf QC.coupling
  rw [j, a, b, o]

/-- C136 (counterpoise): every monomer orbital has a coefficient for every function of the dimer; then the functions may be replaced by any linear
combinations of them in which the orbitals can still be written. -/
theorem C136_counterpoise {coef1 coef2 coefP S oe coef1' coef2' coefP' S' : Mat α} {M K K' : Int} {u v u' v' : Int → α} {C s C' s' T : Int → Int → α} {E : Int → α}
    (h1 : Values coef1 1 K (fun _ j => u j)) (h2 : Values coef2 1 K (fun _ j => v j)) (hP : Values coefP M K C) (hS : Values S K K s) (hE : VectorOf oe M E)
    (h1' : Values coef1' 1 K' (fun _ j => u' j)) (h2' : Values coef2' 1 K' (fun _ j => v' j)) (hP' : Values coefP' M K' C') (hS' : Values S' K' K' s')
    (hs : NewOverlap K K' T s s') (hu : SameOrbital K K' T u u') (hv : SameOrbital K K' T v v') (hC : ∀ m, 1 ≤ m → m ≤ M → SameOrbital K K' T (C m) (C' m)) :
    transferReport coef1' coef2' coefP' S' oe true = transferReport coef1 coef2 coefP S oe true ∧
    calculateTransferIntegral coef1' coef2' coefP' S' oe true = calculateTransferIntegral coef1 coef2 coefP S oe true := by
  have e := report_eq h1 h2 hP hS hE (show Conforming true K K K from ⟨rfl, rfl⟩)
  have e' := report_eq h1' h2' hP' hS' hE (show Conforming true K' K' K' from ⟨rfl, rfl⟩)
  have r := reportOf_congr (M := M) (E := E) (E' := E) (gA := proj K K (zetaA true K u) s C) (gB := proj K K (zetaB true K v) s C)
    (gA' := proj K' K' (zetaA true K' u') s' C') (gB' := proj K' K' (zetaB true K' v') s' C')
    (fun m h h' => proj_basis hs hu (hC m h h')) (fun m h h' => proj_basis hs hv (hC m h h')) (fun _ _ _ => rfl)
  have ee : transferReport coef1' coef2' coefP' S' oe true = transferReport coef1 coef2 coefP S oe true := by
    rw [e, e']
    exact congrArg Res.ok r
  refine ⟨ee, ?_⟩
  rw [calculate_of_report e, calculate_of_report (ee.trans e)]

/-- Sums over the first or the last functions only. -/
theorem sum_first {n K : Int} (h0 : 0 ≤ n) (hn : n ≤ K) (f : Int → α) : ∑ p ∈ Icc 1 K, (if p ≤ n then f p else 0) = ∑ p ∈ Icc 1 n, f p := by
  rw [← Finset.sum_filter]
  refine Finset.sum_congr ?_ fun _ _ => rfl
  ext p
  simp only [mem_filter, mem_Icc]
  omega

theorem sum_last {n k K : Int} (h0 : 0 ≤ n) (hk : n + k = K) (f : Int → α) : ∑ p ∈ Icc 1 K, (if p ≤ n then 0 else f p) = ∑ p ∈ Icc 1 k, f (n + p) := by
  have : ∀ p, (if p ≤ n then (0 : α) else f p) = if ¬ p ≤ n then f p else 0 := fun p => by by_cases c : p ≤ n <;> simp [c]
  simp only [this]
  rw [← Finset.sum_filter]
  refine Finset.sum_nbij' (fun p => p - n) (fun p => n + p) ?_ ?_ ?_ ?_ ?_
  · intro p hp; simp only [mem_filter, mem_Icc] at hp ⊢; omega
  · intro p hp; simp only [mem_filter, mem_Icc] at hp ⊢; omega
  · intro p _; show n + (p - n) = p; omega
  · intro p _; show n + p - n = p; omega
  · intro p _; congr 1; omega

/-- C136 (no counterpoise): the functions of each monomer may be replaced by any linear combinations of them in which the orbitals can still be written. -/
theorem C136_monomers {coef1 coef2 coefP S oe coef1' coef2' coefP' S' : Mat α} {n1 n2 n1' n2' M K K' : Int} {u v u' v' : Int → α}
    {C s C' s' T : Int → Int → α} {E : Int → α}
    (h1 : Values coef1 1 n1 (fun _ j => u j)) (h2 : Values coef2 1 n2 (fun _ j => v j)) (hP : Values coefP M K C) (hS : Values S K K s) (hE : VectorOf oe M E)
    (h1' : Values coef1' 1 n1' (fun _ j => u' j)) (h2' : Values coef2' 1 n2' (fun _ j => v' j)) (hP' : Values coefP' M K' C') (hS' : Values S' K' K' s')
    (hK : n1 + n2 = K) (hK' : n1' + n2' = K') (hT : KeepsMonomers K K' n1 n1' T)
    (hs : NewOverlap K K' T s s') (hu : SameOrbital n1 n1' T u u') (hv : SameOrbital n2 n2' (fun p q => T (n1' + p) (n1 + q)) v v')
    (hC : ∀ m, 1 ≤ m → m ≤ M → SameOrbital K K' T (C m) (C' m)) :
    transferReport coef1' coef2' coefP' S' oe false = transferReport coef1 coef2 coefP S oe false ∧
    calculateTransferIntegral coef1' coef2' coefP' S' oe false = calculateTransferIntegral coef1 coef2 coefP S oe false := by
  have e := report_eq h1 h2 hP hS hE (show Conforming false n1 n2 K from hK)
  have e' := report_eq h1' h2' hP' hS' hE (show Conforming false n1' n2' K' from hK')
  have p1 : 0 ≤ n1 := by have := h1.wf.cols1; rw [h1.cols] at this; omega
  have p2 : 0 ≤ n2 := by have := h2.wf.cols1; rw [h2.cols] at this; omega
  have p1' : 0 ≤ n1' := by have := h1'.wf.cols1; rw [h1'.cols] at this; omega
  have p2' : 0 ≤ n2' := by have := h2'.wf.cols1; rw [h2'.cols] at this; omega
  have za : SameOrbital K K' T (zetaA false n1 u) (zetaA false n1' u') := by
    intro q hq hq'
    simp only [zetaA, Bool.false_eq_true, if_false]
    by_cases c : q ≤ n1
    · rw [if_pos c, hu q hq c, ← sum_first (α := α) (n := n1') (K := K') p1' (by omega)]
      refine Finset.sum_congr rfl fun p _ => ?_
      by_cases cp : p ≤ n1' <;> simp [cp]
    · rw [if_neg c]
      refine (Finset.sum_eq_zero fun p hp => ?_).symm
      rw [mem_Icc] at hp
      by_cases cp : p ≤ n1'
      · rw [hT p q hp.1 hp.2 hq hq' (by tauto), mul_zero]
      · rw [if_neg cp, zero_mul]
  have zb : SameOrbital K K' T (zetaB false n1 v) (zetaB false n1' v') := by
    intro q hq hq'
    simp only [zetaB, Bool.false_eq_true, if_false]
    by_cases c : q ≤ n1
    · rw [if_pos c]
      refine (Finset.sum_eq_zero fun p hp => ?_).symm
      rw [mem_Icc] at hp
      by_cases cp : p ≤ n1'
      · rw [if_pos cp, zero_mul]
      · rw [hT p q hp.1 hp.2 hq hq' (by tauto), mul_zero]
    · rw [if_neg c, hv (q - n1) (by omega) (by omega)]
      have := sum_last (α := α) (n := n1') (k := n2') p1' hK' (fun p => v' (p - n1') * T p q)
      rw [Finset.sum_congr rfl fun p _ => show (if p ≤ n1' then 0 else v' (p - n1')) * T p q = if p ≤ n1' then 0 else v' (p - n1') * T p q by
        by_cases cp : p ≤ n1' <;> simp [cp], this]
      refine Finset.sum_congr rfl fun p _ => ?_
      show v' p * T (n1' + p) (n1 + (q - n1)) = v' (n1' + p - n1') * T (n1' + p) q
      rw [show n1' + p - n1' = p by omega, show n1 + (q - n1) = q by omega]
  have r := reportOf_congr (M := M) (E := E) (E' := E) (gA := proj K K (zetaA false n1 u) s C) (gB := proj K K (zetaB false n1 v) s C)
    (gA' := proj K' K' (zetaA false n1' u') s' C') (gB' := proj K' K' (zetaB false n1' v') s' C')
    (fun m h h' => proj_basis hs za (hC m h h')) (fun m h h' => proj_basis hs zb (hC m h h')) (fun _ _ _ => rfl)
  have ee : transferReport coef1' coef2' coefP' S' oe false = transferReport coef1 coef2 coefP S oe false := by
    rw [e, e']
    exact congrArg Res.ok r
  refine ⟨ee, ?_⟩
  rw [calculate_of_report e, calculate_of_report (ee.trans e)]

/-! ### C137 -/

/-- The projections on the new orbitals. -/
theorem proj_rechosen {M N K : Int} {U C C' s : Int → Int → α} {E E' : Int → α} (h : Rechosen M N U C C' E E') (z : Int → α) {m : Int} (hm : 1 ≤ m) (hm' : m ≤ M) :
    proj K N z s C' m = ∑ n ∈ Icc 1 M, U m n * proj K N z s C n := by
  unfold proj
  simp only [Finset.mul_sum]
  rw [Finset.sum_comm (s := Icc 1 M)]
  refine Finset.sum_congr rfl fun p _ => ?_
  rw [Finset.sum_comm (s := Icc 1 M)]
  refine Finset.sum_congr rfl fun q hq => ?_
  rw [mem_Icc] at hq
  rw [h.orbitals m q hm hm' hq.1 hq.2, Finset.mul_sum]
  exact Finset.sum_congr rfl fun n _ => by ring

/-- Sums of products are the same for both choices, with any weight that goes with the energy. -/
theorem sum_rechosen {M N : Int} {U C C' : Int → Int → α} {E E' : Int → α} (h : Rechosen M N U C C' E E') (w : α → α) (a b : Int → α) :
    ∑ m ∈ Icc 1 M, w (E' m) * (∑ n ∈ Icc 1 M, U m n * a n) * (∑ l ∈ Icc 1 M, U m l * b l) = ∑ n ∈ Icc 1 M, w (E n) * a n * b n := by
  calc ∑ m ∈ Icc 1 M, w (E' m) * (∑ n ∈ Icc 1 M, U m n * a n) * (∑ l ∈ Icc 1 M, U m l * b l)
      = ∑ m ∈ Icc 1 M, ∑ n ∈ Icc 1 M, ∑ l ∈ Icc 1 M, w (E n) * a n * b l * (U m n * U m l) := by
        refine Finset.sum_congr rfl fun m hm => ?_
        rw [Finset.mul_sum (a := w (E' m)), Finset.sum_mul]
        refine Finset.sum_congr rfl fun n hn => ?_
        rw [Finset.mul_sum]
        refine Finset.sum_congr rfl fun l _ => ?_
        rw [mem_Icc] at hm hn
        by_cases c : E' m = E n
        · rw [c]; ring
        · rw [h.energies m n hm.1 hm.2 hn.1 hn.2 c]; ring
    _ = ∑ n ∈ Icc 1 M, ∑ l ∈ Icc 1 M, w (E n) * a n * b l * ∑ m ∈ Icc 1 M, U m n * U m l := by
        rw [Finset.sum_comm]
        refine Finset.sum_congr rfl fun n _ => ?_
        rw [Finset.sum_comm]
        refine Finset.sum_congr rfl fun l _ => ?_
        rw [Finset.mul_sum]
    _ = ∑ n ∈ Icc 1 M, w (E n) * a n * b n := by
        refine Finset.sum_congr rfl fun n hn => ?_
        rw [mem_Icc] at hn
        rw [Finset.sum_eq_single n]
        · rw [h.orthogonal n n hn.1 hn.2 hn.1 hn.2, if_pos rfl, mul_one]
        · intro l hl hne
          rw [mem_Icc] at hl
          rw [h.orthogonal n l hn.1 hn.2 hl.1 hl.2, if_neg (Ne.symm hne), mul_zero]
        · intro hn'
          exact absurd (mem_Icc.2 hn) hn'

/-- C137: the dimer's orbitals may be listed in any order, with any signs, and orbitals of the same energy may be exchanged for any other orthonormal
combinations of them. -/
theorem C137_rechosen {coef1 coef2 coefP coefP' S oe oe' : Mat α} {cp : Bool} {n1 n2 M N K : Int} {u v : Int → α} {C C' s U : Int → Int → α} {E E' : Int → α}
    (h1 : Values coef1 1 n1 (fun _ j => u j)) (h2 : Values coef2 1 n2 (fun _ j => v j)) (hP : Values coefP M N C) (hP' : Values coefP' M N C')
    (hS : Values S K N s) (hE : VectorOf oe M E) (hE' : VectorOf oe' M E') (hc : Conforming cp n1 n2 K) (h : Rechosen M N U C C' E E') :
    transferReport coef1 coef2 coefP' S oe' cp = transferReport coef1 coef2 coefP S oe cp ∧
    calculateTransferIntegral coef1 coef2 coefP' S oe' cp = calculateTransferIntegral coef1 coef2 coefP S oe cp := by
  have e := report_eq h1 h2 hP hS hE hc
  have e' := report_eq h1 h2 hP' hS hE' hc
  have key : ∀ w : α → α, ∀ a b : Int → α, ∑ m ∈ Icc 1 M, w (E' m) * proj K N a s C' m * proj K N b s C' m =
      ∑ m ∈ Icc 1 M, w (E m) * proj K N a s C m * proj K N b s C m := by
    intro w a b
    rw [← sum_rechosen h]
    refine Finset.sum_congr rfl fun m hm => ?_
    rw [mem_Icc] at hm
    rw [proj_rechosen h a hm.1 hm.2, proj_rechosen h b hm.1 hm.2]
  have j : couplingJ M (proj K N (zetaA cp n1 u) s C') (proj K N (zetaB cp n1 v) s C') E' = couplingJ M (proj K N (zetaA cp n1 u) s C) (proj K N (zetaB cp n1 v) s C) E := by
    have := key id (zetaB cp n1 v) (zetaA cp n1 u)
    simpa only [couplingJ, id, mul_comm, mul_left_comm, mul_assoc] using this
  have a : ∀ z : Int → α, siteEnergy M (proj K N z s C') E' = siteEnergy M (proj K N z s C) E := by
    intro z
    have := key id z z
    simpa only [siteEnergy, id, pow_two, mul_comm, mul_left_comm, mul_assoc] using this
  have o : overlapAB M (proj K N (zetaA cp n1 u) s C') (proj K N (zetaB cp n1 v) s C') = overlapAB M (proj K N (zetaA cp n1 u) s C) (proj K N (zetaB cp n1 v) s C) := by
    have := key (fun _ => 1) (zetaB cp n1 v) (zetaA cp n1 u)
    simpa only [overlapAB, one_mul] using this
  have ee : transferReport coef1 coef2 coefP' S oe' cp = transferReport coef1 coef2 coefP S oe cp := by
    rw [e, e']
    unfold QC.reportOf QC.coupling
    rw [j, a, a, o]
  refine ⟨ee, ?_⟩
  rw [calculate_of_report e, calculate_of_report (ee.trans e)]

end

/-! ### C138 -/

section
variable {α : Type} [Field α]

/-- The sums for the sum and the difference of two orbitals. -/
theorem halves {M : Int} {a b E : Int → α} (ha : Normed M a) (hb : Normed M b) :
    (∑ m ∈ Icc 1 M, (a m + b m) ^ 2 = 2 * (1 + overlapAB M a b)) ∧ (∑ m ∈ Icc 1 M, (a m - b m) ^ 2 = 2 * (1 - overlapAB M a b)) ∧
    (∑ m ∈ Icc 1 M, (a m + b m) ^ 2 * E m = siteEnergy M a E + siteEnergy M b E + 2 * couplingJ M a b E) ∧
    (∑ m ∈ Icc 1 M, (a m - b m) ^ 2 * E m = siteEnergy M a E + siteEnergy M b E - 2 * couplingJ M a b E) := by
  unfold Normed at ha hb
  refine ⟨?_, ?_, ?_, ?_⟩
  · calc _ = ∑ m ∈ Icc 1 M, a m ^ 2 + ∑ m ∈ Icc 1 M, b m ^ 2 + 2 * overlapAB M a b := by
          unfold overlapAB
          rw [Finset.mul_sum, ← Finset.sum_add_distrib, ← Finset.sum_add_distrib]
          exact Finset.sum_congr rfl fun m _ => by ring
      _ = _ := by rw [ha, hb]; ring
  · calc _ = ∑ m ∈ Icc 1 M, a m ^ 2 + ∑ m ∈ Icc 1 M, b m ^ 2 - 2 * overlapAB M a b := by
          unfold overlapAB
          rw [Finset.mul_sum, ← Finset.sum_add_distrib, ← Finset.sum_sub_distrib]
          exact Finset.sum_congr rfl fun m _ => by ring
      _ = _ := by rw [ha, hb]; ring
  · unfold siteEnergy couplingJ
    rw [Finset.mul_sum, ← Finset.sum_add_distrib, ← Finset.sum_add_distrib]
    exact Finset.sum_congr rfl fun m _ => by ring
  · unfold siteEnergy couplingJ
    rw [Finset.mul_sum, ← Finset.sum_add_distrib, ← Finset.sum_sub_distrib]
    exact Finset.sum_congr rfl fun m _ => by ring

/-- The formula. -/
theorem coupling_halves {M : Int} {a b E : Int → α} (two : (2 : α) ≠ 0) (ha : Normed M a) (hb : Normed M b) (hs : overlapAB M a b ^ 2 ≠ 1) :
    QC.coupling M a b E = (meanEnergy M (fun m => a m + b m) E - meanEnergy M (fun m => a m - b m) E) / 2 := by
  obtain ⟨h1, h2, h3, h4⟩ := halves (E := E) ha hb
  unfold meanEnergy QC.coupling
  rw [h1, h2, h3, h4]
  have k1 : 1 + overlapAB M a b ≠ 0 := fun h => hs (by linear_combination (overlapAB M a b - 1) * h)
  have k2 : 1 - overlapAB M a b ≠ 0 := fun h => hs (by linear_combination -(overlapAB M a b + 1) * h)
  have k3 : 1 - overlapAB M a b ^ 2 ≠ 0 := fun h => hs (sub_eq_zero.1 h).symm
  generalize overlapAB M a b = s at *
  generalize couplingJ M a b E = j at *
  generalize siteEnergy M a E = x at *
  generalize siteEnergy M b E = y at *
  have e : 1 - s ^ 2 = (1 - s) * (1 + s) := by ring
  rw [e]
  field_simp
  ring

/-- C138: for monomer orbitals that are normalised in the dimer's orbitals, the coupling is half the difference of the mean energies of their sum and
their difference. -/
theorem C138_halves {coef1 coef2 coefP S oe : Mat α} {cp : Bool} {n1 n2 M N K : Int} {u v : Int → α} {C s : Int → Int → α} {E : Int → α} (two : (2 : α) ≠ 0)
    (h1 : Values coef1 1 n1 (fun _ j => u j)) (h2 : Values coef2 1 n2 (fun _ j => v j)) (hP : Values coefP M N C)
    (hS : Values S K N s) (hE : VectorOf oe M E) (hc : Conforming cp n1 n2 K) (ha : Normed M (proj K N (zetaA cp n1 u) s C))
    (hb : Normed M (proj K N (zetaB cp n1 v) s C)) :
    ∃ r, transferReport coef1 coef2 coefP S oe cp = .ok r ∧ (r.sab ^ 2 ≠ 1 → calculateTransferIntegral coef1 coef2 coefP S oe cp =
      .ok ((meanEnergy M (fun m => proj K N (zetaA cp n1 u) s C m + proj K N (zetaB cp n1 v) s C m) E -
        meanEnergy M (fun m => proj K N (zetaA cp n1 u) s C m - proj K N (zetaB cp n1 v) s C m) E) / 2)) := by
  obtain ⟨r, hr, e1, e2, e3, e4, e5, e6⟩ := C82_numbers h1 h2 hP hS hE hc
  refine ⟨r, hr, fun hs => ?_⟩
  rw [e6, e5]
  exact congrArg Res.ok (coupling_halves two ha hb (e4 ▸ hs))

end

section
variable {α : Type} [Field α] [LinearOrder α] [IsStrictOrderedRing α]

/-- A mean of numbers in a range is in the range. -/
theorem mean_range {M : Int} {g E : Int → α} {lo hi : α} (hE : ∀ m, 1 ≤ m → m ≤ M → lo ≤ E m ∧ E m ≤ hi) (hg : 0 < ∑ m ∈ Icc 1 M, g m ^ 2) :
    lo ≤ meanEnergy M g E ∧ meanEnergy M g E ≤ hi := by
  unfold meanEnergy
  rw [le_div_iff₀ hg, div_le_iff₀ hg, Finset.mul_sum, Finset.mul_sum]
  constructor <;> refine Finset.sum_le_sum fun m hm => ?_
  · rw [mem_Icc] at hm
    nlinarith [sq_nonneg (g m), (hE m hm.1 hm.2).1, mul_nonneg (sub_nonneg.2 (hE m hm.1 hm.2).1) (sq_nonneg (g m))]
  · rw [mem_Icc] at hm
    nlinarith [sq_nonneg (g m), mul_nonneg (sub_nonneg.2 (hE m hm.1 hm.2).2) (sq_nonneg (g m))]

/-- The overlap of normalised orbitals. -/
theorem overlap_le {M : Int} {a b : Int → α} (ha : Normed M a) (hb : Normed M b) : -1 ≤ overlapAB M a b ∧ overlapAB M a b ≤ 1 := by
  obtain ⟨h1, h2, -, -⟩ := halves (E := fun _ => (0 : α)) ha hb
  have p1 : 0 ≤ ∑ m ∈ Icc 1 M, (a m + b m) ^ 2 := Finset.sum_nonneg fun m _ => sq_nonneg _
  have p2 : 0 ≤ ∑ m ∈ Icc 1 M, (a m - b m) ^ 2 := Finset.sum_nonneg fun m _ => sq_nonneg _
  constructor <;> linarith

/-- The numbers of normalised orbitals, whatever the energies. -/
structure InRange (lo hi : α) (r : Report α) : Prop where
  ea : lo ≤ r.ea ∧ r.ea ≤ hi
  eb : lo ≤ r.eb ∧ r.eb ≤ hi
  sab : -1 ≤ r.sab ∧ r.sab ≤ 1
  jeff : |r.jeff| ≤ (hi - lo) / 2

theorem reportOf_range {M : Int} {a b E : Int → α} {lo hi : α} (ha : Normed M a) (hb : Normed M b) (hE : ∀ m, 1 ≤ m → m ≤ M → lo ≤ E m ∧ E m ≤ hi) :
    InRange lo hi (QC.reportOf M a b E) := by
  have site : ∀ {g : Int → α}, Normed M g → lo ≤ siteEnergy M g E ∧ siteEnergy M g E ≤ hi := by
    intro g hg
    unfold Normed at hg
    have := mean_range (g := g) hE (by rw [hg]; exact one_pos)
    unfold meanEnergy at this
    rwa [hg, div_one] at this
  have hlh : lo ≤ hi := le_trans (site ha).1 (site ha).2
  obtain ⟨s1, s2⟩ := overlap_le ha hb
  refine ⟨site ha, site hb, ⟨s1, s2⟩, ?_⟩
  show |QC.coupling M a b E| ≤ (hi - lo) / 2
  by_cases hs : overlapAB M a b ^ 2 = 1
  · have : QC.coupling M a b E = 0 := by unfold QC.coupling; rw [hs, sub_self, div_zero]
    rw [this, abs_zero]
    linarith
  · rw [coupling_halves two_ne_zero ha hb hs]
    obtain ⟨h1, h2, -, -⟩ := halves (E := E) ha hb
    have k1 : overlapAB M a b ≠ -1 := fun h => hs (by rw [h]; ring)
    have k2 : overlapAB M a b ≠ 1 := fun h => hs (by rw [h]; ring)
    have l1 := lt_of_le_of_ne s1 (Ne.symm k1)
    have l2 := lt_of_le_of_ne s2 k2
    obtain ⟨m1, m2⟩ := mean_range (g := fun m => a m + b m) hE (by rw [h1]; linarith)
    obtain ⟨m3, m4⟩ := mean_range (g := fun m => a m - b m) hE (by rw [h2]; linarith)
    rw [abs_le]
    constructor <;> linarith

/-- C138 (range): then the site energies lie among the dimer's orbital energies, the overlap is at most one in size, and the coupling is at most half the
range of the energies. -/
theorem C138_range {coef1 coef2 coefP S oe : Mat α} {cp : Bool} {n1 n2 M N K : Int} {u v : Int → α} {C s : Int → Int → α} {E : Int → α} {lo hi : α}
    (h1 : Values coef1 1 n1 (fun _ j => u j)) (h2 : Values coef2 1 n2 (fun _ j => v j)) (hP : Values coefP M N C)
    (hS : Values S K N s) (hE : VectorOf oe M E) (hc : Conforming cp n1 n2 K) (ha : Normed M (proj K N (zetaA cp n1 u) s C))
    (hb : Normed M (proj K N (zetaB cp n1 v) s C)) (hr : ∀ m, 1 ≤ m → m ≤ M → lo ≤ E m ∧ E m ≤ hi) :
    ∃ r, transferReport coef1 coef2 coefP S oe cp = .ok r ∧ calculateTransferIntegral coef1 coef2 coefP S oe cp = .ok r.jeff ∧
      lo ≤ r.ea ∧ r.ea ≤ hi ∧ lo ≤ r.eb ∧ r.eb ≤ hi ∧ -1 ≤ r.sab ∧ r.sab ≤ 1 ∧ |r.jeff| ≤ (hi - lo) / 2 := by
  have e := report_eq h1 h2 hP hS hE hc
  obtain ⟨k1, k2, k3, k4⟩ := reportOf_range ha hb hr
  exact ⟨_, e, calculate_of_report e, k1.1, k1.2, k2.1, k2.2, k3.1, k3.2, k4⟩

end
end Verif
