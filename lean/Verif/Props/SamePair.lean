import Verif.Spec.SamePair
import Verif.Props.Errors
/-
C153: two descriptions of the same pair of molecules.
-/
namespace Verif
open Strings Readers QC Mat Finset

section
variable {α : Type} [Field α]

/-- The numbers for energies in another unit from another zero and orbitals with other signs. -/
theorem reportOf_converted {M : Int} {a b E : Int → α} {x y k c : α} (hx : x = 1 ∨ x = -1) (hy : y = 1 ∨ y = -1) (two : (2 : α) ≠ 0)
    (hn : c = 0 ∨ Normed M a ∧ Normed M b) :
    Converted x y k c (QC.reportOf M a b E) (QC.reportOf M (fun m => x * a m) (fun m => y * b m) (fun m => k * E m + c)) := by
  have hx2 : x * x = 1 := by rcases hx with rfl | rfl <;> ring
  have hy2 : y * y = 1 := by rcases hy with rfl | rfl <;> ring
  have hxy : (x * y) * (x * y) = 1 := by linear_combination hx2 * y * y + hy2
  have site : ∀ (z : α) (g : Int → α), z * z = 1 → (c = 0 ∨ Normed M g) →
      siteEnergy M (fun m => z * g m) (fun m => k * E m + c) = k * siteEnergy M g E + c := by
    intro z g hz hg
    have e : siteEnergy M (fun m => z * g m) (fun m => k * E m + c) = k * siteEnergy M g E + c * ∑ m ∈ Icc 1 M, g m ^ 2 := by
      unfold siteEnergy
      rw [Finset.mul_sum, Finset.mul_sum, ← Finset.sum_add_distrib]
      exact Finset.sum_congr rfl fun m _ => by linear_combination hz * g m ^ 2 * (k * E m + c)
    rw [e]
    rcases hg with rfl | hg
    · ring
    · unfold Normed at hg; rw [hg, mul_one]
  have ha := site x a hx2 (hn.imp id And.left)
  have hb := site y b hy2 (hn.imp id And.right)
  have ho : overlapAB M (fun m => x * a m) (fun m => y * b m) = x * y * overlapAB M a b := by
    unfold overlapAB
    rw [Finset.mul_sum]
    exact Finset.sum_congr rfl fun m _ => by ring
  have hj : couplingJ M (fun m => x * a m) (fun m => y * b m) (fun m => k * E m + c) = x * y * (k * couplingJ M a b E + c * overlapAB M a b) := by
    unfold couplingJ overlapAB
    rw [Finset.mul_sum, Finset.mul_sum, ← Finset.sum_add_distrib, Finset.mul_sum]
    exact Finset.sum_congr rfl fun m _ => by ring
  refine ⟨hj, ha, hb, ho, ?_⟩
  show QC.coupling M _ _ _ = x * y * (k * QC.coupling M a b E)
  unfold QC.coupling
  rw [hj, ha, hb, ho]
  generalize overlapAB M a b = o
  generalize couplingJ M a b E = j
  generalize siteEnergy M a E = p
  generalize siteEnergy M b E = q
  have d : (x * y * o) ^ 2 = o ^ 2 := by linear_combination hxy * o ^ 2
  rw [d, ← mul_div_assoc, ← mul_div_assoc]
  congr 1
  field_simp
  ring

/-- Two descriptions of the same pair. -/
theorem reportOf_same {K K' M : Int} {zA zB zA' zB' : Int → α} {s s' C C' : Int → Int → α} {E E' : Int → α} {T U : Int → Int → α} {x y k c : α}
    (h : SamePair K K' M zA zB zA' zB' s s' C C' E E' T U x y k c) :
    QC.reportOf M (proj K' K' zA' s' C') (proj K' K' zB' s' C') E' =
      QC.reportOf M (fun m => x * proj K K zA s C m) (fun m => y * proj K K zB s C m) (fun m => k * E m + c) := by
  have hr : Rechosen M K U C (fun m q => ∑ n ∈ Icc 1 M, U m n * C n q) (fun m => k * E m + c) E' :=
    ⟨fun _ _ _ _ _ _ => rfl, h.orthogonal, h.energies⟩
  have pr : ∀ (w : α) (z z' : Int → α), SameOrbital K K' T (fun q => w * z q) z' → ∀ m, 1 ≤ m → m ≤ M →
      proj K' K' z' s' C' m = ∑ n ∈ Icc 1 M, U m n * (w * proj K K z s C n) := by
    intro w z z' hz m hm hm'
    have e := proj_basis (C := fun m q => ∑ n ∈ Icc 1 M, U m n * C n q) (m := m) h.overlaps hz (h.dimer m hm hm')
    rw [e, proj_rechosen hr _ hm hm']
    refine Finset.sum_congr rfl fun n _ => ?_
    congr 1
    unfold proj
    simp only [Finset.mul_sum]
    exact Finset.sum_congr rfl fun p _ => Finset.sum_congr rfl fun q _ => by ring
  have pa := pr x zA zA' h.first
  have pb := pr y zB zB' h.second
  rw [reportOf_congr (E := E') pa pb (fun _ _ _ => rfl)]
  have s1 := fun w a b => sum_rechosen hr w a b
  have j : ∀ a b : Int → α, couplingJ M (fun m => ∑ n ∈ Icc 1 M, U m n * a n) (fun m => ∑ n ∈ Icc 1 M, U m n * b n) E' = couplingJ M a b (fun m => k * E m + c) := by
    intro a b
    have := s1 id b a
    simpa only [couplingJ, id, mul_comm, mul_left_comm, mul_assoc] using this
  have e : ∀ a : Int → α, siteEnergy M (fun m => ∑ n ∈ Icc 1 M, U m n * a n) E' = siteEnergy M a (fun m => k * E m + c) := by
    intro a
    have := s1 id a a
    simpa only [siteEnergy, id, pow_two, mul_comm, mul_left_comm, mul_assoc] using this
  have o : ∀ a b : Int → α, overlapAB M (fun m => ∑ n ∈ Icc 1 M, U m n * a n) (fun m => ∑ n ∈ Icc 1 M, U m n * b n) = overlapAB M a b := by
    intro a b
    have := s1 (fun _ => 1) b a
    simpa only [overlapAB, one_mul] using this
  unfold QC.reportOf QC.coupling
  rw [j, e, e, o]

/-- **C153.** Two descriptions of the same pair, given to the function: the numbers belong together. -/
theorem C153_report {coef1 coef2 coefP S oe coef1' coef2' coefP' S' oe' : Mat α} {cp cp' : Bool} {n1 n2 n1' n2' M K K' : Int} {u v u' v' : Int → α}
    {C s C' s' T U : Int → Int → α} {E E' : Int → α} {x y k c : α} (two : (2 : α) ≠ 0)
    (h1 : Values coef1 1 n1 (fun _ j => u j)) (h2 : Values coef2 1 n2 (fun _ j => v j)) (hP : Values coefP M K C) (hS : Values S K K s) (hE : VectorOf oe M E)
    (hc : Conforming cp n1 n2 K)
    (h1' : Values coef1' 1 n1' (fun _ j => u' j)) (h2' : Values coef2' 1 n2' (fun _ j => v' j)) (hP' : Values coefP' M K' C') (hS' : Values S' K' K' s')
    (hE' : VectorOf oe' M E') (hc' : Conforming cp' n1' n2' K') (hx : x = 1 ∨ x = -1) (hy : y = 1 ∨ y = -1)
    (h : SamePair K K' M (zetaA cp n1 u) (zetaB cp n1 v) (zetaA cp' n1' u') (zetaB cp' n1' v') s s' C C' E E' T U x y k c)
    (hn : c = 0 ∨ Normed M (proj K K (zetaA cp n1 u) s C) ∧ Normed M (proj K K (zetaB cp n1 v) s C)) :
    ∃ r r', transferReport coef1 coef2 coefP S oe cp = .ok r ∧ transferReport coef1' coef2' coefP' S' oe' cp' = .ok r' ∧
      calculateTransferIntegral coef1 coef2 coefP S oe cp = .ok r.jeff ∧ calculateTransferIntegral coef1' coef2' coefP' S' oe' cp' = .ok r'.jeff ∧
      Converted x y k c r r' := by
  have e := report_eq h1 h2 hP hS hE hc
  have e' := report_eq h1' h2' hP' hS' hE' hc'
  exact ⟨_, _, e, e', calculate_of_report e, calculate_of_report e', reportOf_same h ▸ reportOf_converted hx hy two hn⟩

end

section
variable {α : Type} [Field α] {β : Type} [Num α] [DecidableEq β] {D : Type} [Args.Dbl D]

omit [Num α] in
theorem IsReport.same {cp : Bool} {coef1 coef2 coefP S : Mat α} {E : List α} {row1 row2 : Int} {r : Report α} (two : (2 : α) ≠ 0)
    (h : IsReport cp coef1 coef2 coefP S E row1 row2 r) {cp' : Bool} {coef1' coef2' coefP' S' : Mat α} {E' : List α} {row1' row2' : Int} {r' : Report α}
    (h' : IsReport cp' coef1' coef2' coefP' S' E' row1' row2' r') :
    SamePairMeaning cp coef1 coef2 coefP S E row1 row2 r cp' coef1' coef2' coefP' S' E' row1' row2' r' := by
  intro N1 n1 N2 n2 M K c1 c2 C s h1 h2 hP hS N1' n1' N2' n2' K' c1' c2' C' s' h1' h2' hP' hS' T U x y k c hx hy hs hn
  obtain ⟨-, rfl⟩ := IsReport.values h h1 h2 hP hS
  obtain ⟨-, rfl⟩ := IsReport.values h' h1' h2' hP' hS'
  exact reportOf_same hs ▸ reportOf_converted hx hy two hn

/-- **C153 (runs).** Two runs of calc_J, on whatever files, that end normally: each has tables, and if these describe the same pair, the numbers printed belong
together. -/
theorem C153_run (two : (2 : α) ≠ 0) (tos tos' : α → β) (files files' : Str → Option Str) (fuel fuel' : Nat) (args args' : List Str)
    {par par' : Params.Params} {r r' : Report α}
    (h : calcJRun D tos files fuel args = .ok (par, r)) (h' : calcJRun D tos' files' fuel' args' = .ok (par', r')) :
    ∃ coef1 coef2 coefP S eP row1 row2 coef1' coef2' coefP' S' eP' row1' row2',
      TablesOf tos files fuel par coef1 coef2 coefP S eP row1 row2 ∧ TablesOf tos' files' fuel' par' coef1' coef2' coefP' S' eP' row1' row2' ∧
      SamePairMeaning par.counterPoise coef1 coef2 coefP S eP row1 row2 r par'.counterPoise coef1' coef2' coefP' S' eP' row1' row2' r' := by
  obtain ⟨coef1, coef2, coefP, S, eP, row1, row2, t, k⟩ := tablesOf_run h
  obtain ⟨coef1', coef2', coefP', S', eP', row1', row2', t', k'⟩ := tablesOf_run h'
  exact ⟨coef1, coef2, coefP, S, eP, row1, row2, coef1', coef2', coefP', S', eP', row1', row2', t, t', IsReport.same two k k'⟩

end
end Verif
