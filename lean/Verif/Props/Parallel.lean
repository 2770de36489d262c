import Verif.Spec.Parallel
import Verif.Props.RunErrors
import Verif.Props.Errors
import Mathlib.Tactic.LinearCombination
/-
C151: orbitals that are equal up to the sign.
-/
namespace Verif
open Strings Readers QC Mat Machine

section
variable {α : Type} [Zero α] [One α] [Add α] [Sub α] [Mul α] [Div α]

omit [One α] [Sub α] [Div α] in
theorem proj_agree {K N : Int} {z z' : Int → α} (s C : Int → Int → α) (h : ∀ p, 1 ≤ p → p ≤ K → z' p = z p) : Machine.proj K N z' s C = Machine.proj K N z s C := by
  funext m
  unfold Machine.proj
  conv => lhs; rw [Machine.dot]
  conv => rhs; rw [Machine.dot]
  exact sum_congr _ fun k k1 k2 => by rw [h k k1 (by omega)]

/-- C151 (any arithmetic): for the same orbital as orbital of both monomers (which takes counterpoise), the two energies and J_ab are one number, bit for bit. -/
theorem C151_same {coef1 coef2 coefP S oe : Mat α} {n M N : Int} {u v : Int → α} {C s : Int → Int → α} {E : Int → α}
    (h1 : Values coef1 1 n (fun _ j => u j)) (h2 : Values coef2 1 n (fun _ j => v j)) (hP : Values coefP M N C)
    (hS : Values S n N s) (hE : VectorOf oe M E) (hv : ∀ j, 1 ≤ j → j ≤ n → v j = u j) :
    ∃ r, transferReport coef1 coef2 coefP S oe true = .ok r ∧ r.ea = r.jab ∧ r.eb = r.jab ∧
      r.jeff = (r.jab - 1 / (1 + 1) * (r.jab + r.jab) * r.sab) / (1 - r.sab * r.sab) := by
  refine ⟨_, C99_report h1 h2 hP hS hE (show Conforming Bool.true n n n from ⟨rfl, rfl⟩), ?_⟩
  rw [show Machine.proj n N (zetaB Bool.true n v) s C = Machine.proj n N (zetaA Bool.true n u) s C from proj_agree s C hv]
  exact ⟨rfl, rfl, rfl⟩

theorem QC.MachineReport.same {coef1 coef2 coefP S : Mat α} {E : List α} {row1 row2 : Int} {r : Report α}
    (h : MachineReport Bool.true coef1 coef2 coefP S E row1 row2 r) (g : OneOrbital coef1 coef2 row1 row2) :
    r.ea = r.jab ∧ r.eb = r.jab ∧ r.jeff = (r.jab - 1 / (1 + 1) * (r.jab + r.jab) * r.sab) / (1 - r.sab * r.sab) := by
  obtain ⟨N1, n1, N2, n2, M, N, K, c1, c2, C, s, h1, h2, hP, hS, -, hc, l1, l2, l3, l4, rfl⟩ := h
  obtain ⟨e, g⟩ := g
  rw [h1.cols] at e g
  obtain rfl : n2 = n1 := h2.cols.symm.trans e
  obtain rfl : n2 = K := hc.1
  rw [show Machine.proj n2 N (zetaB Bool.true n2 (c2 row2)) s C = Machine.proj n2 N (zetaA Bool.true n2 (c1 row1)) s C from proj_agree s C fun j a b => by
    have := g j a b
    rw [h1.val _ _ l1 l2 a b, h2.val _ _ l3 l4 a b] at this
    exact Res.ok.inj this]
  exact ⟨rfl, rfl, rfl⟩

/-- C151 (zero by zero): if, moreover, the overlap is exactly 1 and zero divided by zero is no number, the effective coupling is no number. -/
theorem C151_nan {bad : α → Prop} (h0 : bad (0 / 0)) {r : Report α} (L : UnitAt r.jab)
    (h : r.ea = r.jab ∧ r.eb = r.jab ∧ r.jeff = (r.jab - 1 / (1 + 1) * (r.jab + r.jab) * r.sab) / (1 - r.sab * r.sab)) (hs : r.sab = 1) : bad r.jeff := by
  rw [h.2.2, hs, L.one_mul_one, L.one_sub_one, L.mean, L.mul_one, L.sub_self]
  exact h0

variable {β : Type} [Num α] [DecidableEq β] {D : Type} [Args.Dbl D]

/-- C151 (runs, any arithmetic): the same for every run of calc_J that ends normally; nothing warns the user. -/
theorem C151_run (tos : α → β) (files : Str → Option Str) (fuel : Nat) (args : List Str) {par : Params.Params} {r : Report α}
    (h : calcJRun D tos files fuel args = .ok (par, r)) (cp : par.counterPoise = true) :
    ∃ coef1 coef2 coefP S eP row1 row2, TablesOf tos files fuel par coef1 coef2 coefP S eP row1 row2 ∧
      (OneOrbital coef1 coef2 row1 row2 → (r.ea = r.jab ∧ r.eb = r.jab) ∧
        (UnitAt r.jab → ∀ bad : α → Prop, bad (0 / 0) → r.sab = 1 → bad r.jeff)) := by
  obtain ⟨coef1, coef2, coefP, S, eP, row1, row2, t, k⟩ := C146_run tos files fuel args h
  rw [cp] at k
  refine ⟨coef1, coef2, coefP, S, eP, row1, row2, t, fun g => ?_⟩
  have := k.same g
  exact ⟨⟨this.1, this.2.1⟩, fun L bad h0 hs => C151_nan h0 L this hs⟩

end

section
variable {α : Type} [Field α] [LinearOrder α] [IsStrictOrderedRing α]
open Finset

theorem parallel_meaning {M : Int} {a b E : Int → α} (ha : Normed M a) (hb : Normed M b) : ParallelMeaning M a b (QC.reportOf M a b E) := by
  unfold Normed at ha hb
  have key : ∀ ε : α, ε ^ 2 = 1 → (overlapAB M a b = ε ↔ ∀ m, 1 ≤ m → m ≤ M → b m = ε * a m) := by
    intro ε hε
    have e : ∑ m ∈ Icc 1 M, (b m - ε * a m) ^ 2 = 2 - 2 * ε * overlapAB M a b := by
      have : ∀ m, (b m - ε * a m) ^ 2 = b m ^ 2 + a m ^ 2 - 2 * ε * (b m * a m) := fun m => by linear_combination (a m ^ 2) * hε
      rw [Finset.sum_congr rfl fun m _ => this m, Finset.sum_sub_distrib, Finset.sum_add_distrib, ha, hb, ← Finset.mul_sum]
      unfold overlapAB
      ring
    constructor
    · intro h m m1 m2
      rw [h, show 2 - 2 * ε * ε = (0 : α) by linear_combination (-2 : α) * hε, Finset.sum_eq_zero_iff_of_nonneg fun m _ => sq_nonneg _] at e
      have := e m (Finset.mem_Icc.2 ⟨m1, m2⟩)
      have := pow_eq_zero_iff (two_ne_zero) |>.1 this
      linear_combination this
    · intro h
      have z : ∑ m ∈ Icc 1 M, (b m - ε * a m) ^ 2 = 0 := Finset.sum_eq_zero fun m hm => by
        obtain ⟨m1, m2⟩ := Finset.mem_Icc.1 hm
        rw [h m m1 m2, sub_self]; exact zero_pow two_ne_zero
      rw [z] at e
      linear_combination (1 / 2 * ε) * e - (overlapAB M a b) * hε
  have cases : (overlapAB M a b) ^ 2 = 1 → ∃ ε : α, ε ^ 2 = 1 ∧ overlapAB M a b = ε ∧ ∀ m, 1 ≤ m → m ≤ M → b m = ε * a m :=
    fun h => ⟨_, h, rfl, (key _ h).1 rfl⟩
  have en : (overlapAB M a b) ^ 2 = 1 → siteEnergy M b E = siteEnergy M a E ∧ couplingJ M a b E = overlapAB M a b * siteEnergy M a E := by
    intro h
    obtain ⟨ε, hε, hs, hm⟩ := cases h
    rw [hs]
    constructor
    · exact Finset.sum_congr rfl fun m hm' => by
        obtain ⟨m1, m2⟩ := Finset.mem_Icc.1 hm'
        rw [hm m m1 m2]; linear_combination (a m ^ 2 * E m) * hε
    · unfold couplingJ siteEnergy
      rw [Finset.mul_sum]
      exact Finset.sum_congr rfl fun m hm' => by
        obtain ⟨m1, m2⟩ := Finset.mem_Icc.1 hm'
        rw [hm m m1 m2]; ring
  refine ⟨?_, en, fun h => ?_⟩
  · show overlapAB M a b ^ 2 = 1 ↔ _
    constructor
    · intro h
      rcases (sq_eq_one_iff.1 h) with h' | h'
      · exact .inl fun m m1 m2 => by rw [(key 1 (one_pow 2)).1 h' m m1 m2, one_mul]
      · exact .inr fun m m1 m2 => by rw [(key (-1) (by ring)).1 h' m m1 m2]; ring
    · rintro (h | h)
      · rw [(key 1 (one_pow 2)).2 fun m m1 m2 => by rw [h m m1 m2, one_mul]]; ring
      · rw [(key (-1) (by ring)).2 fun m m1 m2 => by rw [h m m1 m2]; ring]; ring
  · obtain ⟨e1, e2⟩ := en h
    refine ⟨?_, by show 1 - overlapAB M a b ^ 2 = 0; rw [show overlapAB M a b ^ 2 = 1 from h, sub_self]⟩
    show couplingJ M a b E - (siteEnergy M a E + siteEnergy M b E) * overlapAB M a b / 2 = 0
    rw [e1, e2]; ring

/-- C151 (when): for normalised orbitals the divisor of the effective coupling is zero exactly if the two orbitals are one up to the sign, and then the dividend is
zero too. -/
theorem C151_report {coef1 coef2 coefP S oe : Mat α} {cp : Bool} {n1 n2 M N K : Int} {u v : Int → α} {C s : Int → Int → α} {E : Int → α}
    (h1 : Values coef1 1 n1 (fun _ j => u j)) (h2 : Values coef2 1 n2 (fun _ j => v j)) (hP : Values coefP M N C)
    (hS : Values S K N s) (hE : VectorOf oe M E) (hc : Conforming cp n1 n2 K)
    (ha : Normed M (QC.proj K N (zetaA cp n1 u) s C)) (hb : Normed M (QC.proj K N (zetaB cp n1 v) s C)) :
    ∃ r, transferReport coef1 coef2 coefP S oe cp = .ok r ∧ ParallelMeaning M (QC.proj K N (zetaA cp n1 u) s C) (QC.proj K N (zetaB cp n1 v) s C) r :=
  ⟨_, report_eq h1 h2 hP hS hE hc, parallel_meaning ha hb⟩

variable {β : Type} [Num α] [DecidableEq β] {D : Type} [Args.Dbl D]

/-- C151 (when, runs): the same for every run of calc_J that ends normally. -/
theorem C151_run_when (tos : α → β) (files : Str → Option Str) (fuel : Nat) (args : List Str) {par : Params.Params} {r : Report α}
    (h : calcJRun D tos files fuel args = .ok (par, r)) :
    ∃ coef1 coef2 coefP S eP row1 row2, TablesOf tos files fuel par coef1 coef2 coefP S eP row1 row2 ∧
      ∀ ⦃N1 n1 N2 n2 M N K : Int⦄ ⦃c1 c2 C s : Int → Int → α⦄, Values coef1 N1 n1 c1 → Values coef2 N2 n2 c2 → Values coefP M N C → Values S K N s →
        Normed M (QC.proj K N (zetaA par.counterPoise n1 (c1 row1)) s C) → Normed M (QC.proj K N (zetaB par.counterPoise n1 (c2 row2)) s C) →
        ParallelMeaning M (QC.proj K N (zetaA par.counterPoise n1 (c1 row1)) s C) (QC.proj K N (zetaB par.counterPoise n1 (c2 row2)) s C) r := by
  obtain ⟨coef1, coef2, coefP, S, eP, row1, row2, t, k⟩ := tablesOf_run h
  refine ⟨coef1, coef2, coefP, S, eP, row1, row2, t, ?_⟩
  intro N1 n1 N2 n2 M N K c1 c2 C s h1 h2 hP hS ha hb
  obtain ⟨-, rfl⟩ := IsReport.values k h1 h2 hP hS
  exact parallel_meaning ha hb

end
end Verif
