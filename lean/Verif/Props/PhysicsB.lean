import Verif.Props.Physics
/-
C138 for calc_J, and C139: monomers that do not interact.
-/
namespace Verif
open Strings Readers QC Mat Finset

section
variable {α : Type} [Field α] [LinearOrder α] [IsStrictOrderedRing α] {β : Type} [Num α] [DecidableEq β] {D : Type} [Args.Dbl D]

theorem IsReport.lengthE {cp : Bool} {coef1 coef2 coefP S : Mat α} {E : List α} {row1 row2 : Int} {r : Report α}
    (h : IsReport cp coef1 coef2 coefP S E row1 row2 r) {M N : Int} {C : Int → Int → α} (hP : Values coefP M N C) : (E.length : Int) = M := by
  obtain ⟨N1', n1', N2', n2', M', N', K', c1', c2', C', s', h1', h2', hP', hS', hl, hc, l1, l2, l3, l4, rfl⟩ := h
  rw [hl]
  exact hP'.rows.symm.trans hP.rows

theorem IsReport.range {cp : Bool} {coef1 coef2 coefP S : Mat α} {E : List α} {row1 row2 : Int} {r : Report α}
    (h : IsReport cp coef1 coef2 coefP S E row1 row2 r) : RangeMeaning cp coef1 coef2 coefP S E row1 row2 r := by
  intro N1 n1 N2 n2 M N K c1 c2 C s lo hi h1 h2 hP hS ha hb hE
  have hl := IsReport.lengthE h hP
  obtain ⟨-, rfl⟩ := IsReport.values h h1 h2 hP hS
  obtain ⟨k1, k2, k3, k4⟩ := reportOf_range (E := fun m => E.getD (m - 1).toNat 0) ha hb fun m hm hm' => by
    have : (m - 1).toNat < E.length := by omega
    simp only [List.getD_eq_getElem?_getD, List.getElem?_eq_getElem this, Option.getD_some]
    exact hE _ (List.getElem_mem this)
  exact ⟨k1.1, k1.2, k2.1, k2.2, k3.1, k3.2, k4⟩

/-- C138 (calc_J): the same for every run of calc_J that ends normally, of the tables the readers found (after the dimer's atoms were matched, if the
populations were in the files). -/
theorem C138_run (tos : α → β) (files : Str → Option Str) (fuel : Nat) (args : List Str) {par : Params.Params} {r : Report α}
    (h : calcJRun D tos files fuel args = .ok (par, r)) :
    ∃ (prP pr1 pr2 : PunData α) (lrP lr1 lr2 : LogData α),
      readPun files fuel par.punP = .ok prP ∧ readPun files fuel par.pun1 = .ok pr1 ∧ readPun files fuel par.pun2 = .ok pr2 ∧
      readLog files fuel par.logP = .ok lrP ∧ readLog files fuel par.log1 = .ok lr1 ∧ readLog files fuel par.log2 = .ok lr2 ∧
      ∃ S coefP coef1 coef2 eP e1 e2 homo1 homo2 row1 row2,
        lrP.getOverlapMatrix = .ok S ∧ prP.getCoefsMatrix par.spinP = .ok coefP ∧ pr1.getCoefsMatrix par.spin1 = .ok coef1 ∧
        pr2.getCoefsMatrix par.spin2 = .ok coef2 ∧ lrP.getOE par.spinP = .ok eP ∧ lr1.getOE par.spin1 = .ok e1 ∧
        lr2.getOE par.spin2 = .ok e2 ∧ lr1.getHOMOLevel par.spin1 = .ok homo1 ∧ lr2.getHOMOLevel par.spin2 = .ok homo2 ∧
        NamesOrbital (e1.length, homo1) par.orbType1 par.orbNum1 row1 ∧ NamesOrbital (e2.length, homo2) par.orbType2 par.orbNum2 row2 ∧
        (¬ HavePopulations lrP lr1 lr2 → RangeMeaning par.counterPoise coef1 coef2 coefP S eP row1 row2 r) ∧
        (HavePopulations lrP lr1 lr2 → ∃ (x1 x2 xP : Mat α) (T T' : TransferComplex α), ofVecVec lr1.getCoords = .ok x1 ∧
          ofVecVec lr2.getCoords = .ok x2 ∧ ofVecVec lrP.getCoords = .ok xP ∧ T.coef2 = coef2 ∧ T.coefP = coefP ∧ T.S = S ∧
          T.cp = par.counterPoise ∧ T.unscramble tos x1 x2 xP lrP.getBasisFuncCount lr2.getBasisFuncCount = .ok T' ∧
          RangeMeaning par.counterPoise coef1 T'.coef2 T'.coefP T'.S eP row1 row2 r) := by
  obtain ⟨q, h1, h2, h3, prP, pr1, pr2, lrP, lr1, lr2, g1, g2, g3, g4, g5, g6, S, coefP, coef1, coef2, eP, e1, e2, homo1, homo2, row1, row2,
    k1, k2, k3, k4, k5, k6, k7, k8, k9, k10, k11, k12, k13⟩ := C82_sound tos files fuel args h
  refine ⟨prP, pr1, pr2, lrP, lr1, lr2, g1, g2, g3, g4, g5, g6, S, coefP, coef1, coef2, eP, e1, e2, homo1, homo2, row1, row2,
    k1, k2, k3, k4, k5, k6, k7, k8, k9, k10, k11, ?_, ?_⟩
  · exact fun hn => IsReport.range (k12 hn)
  · intro hp
    obtain ⟨x1, x2, xP, T, T', a1, a2, a3, a4, a5, a6, a7, a8, a9⟩ := k13 hp
    exact ⟨x1, x2, xP, T, T', a1, a2, a3, a4, a5, a6, a7, a8, IsReport.range a9⟩

end

/-! ### C139 -/

section
variable {α : Type} [Field α]

/-- If no dimer orbital has a part of both, there is no coupling. -/
theorem coupling_disjoint {M : Int} {a b E : Int → α} (h : ∀ m, 1 ≤ m → m ≤ M → a m = 0 ∨ b m = 0) :
    couplingJ M a b E = 0 ∧ overlapAB M a b = 0 ∧ QC.coupling M a b E = 0 := by
  have j : couplingJ M a b E = 0 := Finset.sum_eq_zero fun m hm => by
    rw [mem_Icc] at hm
    rcases h m hm.1 hm.2 with e | e <;> rw [e] <;> ring
  have o : overlapAB M a b = 0 := Finset.sum_eq_zero fun m hm => by
    rw [mem_Icc] at hm
    rcases h m hm.1 hm.2 with e | e <;> rw [e] <;> ring
  refine ⟨j, o, ?_⟩
  unfold QC.coupling
  rw [j, o]
  ring

/-- C139: if no function of one monomer overlaps a function of the other, and every orbital of the dimer is on one of them, the coupling is zero. -/
theorem C139_localised {coef1 coef2 coefP S oe : Mat α} {n1 n2 M K : Int} {u v : Int → α} {C s : Int → Int → α} {E : Int → α}
    (h1 : Values coef1 1 n1 (fun _ j => u j)) (h2 : Values coef2 1 n2 (fun _ j => v j)) (hP : Values coefP M K C)
    (hS : Values S K K s) (hE : VectorOf oe M E) (hK : n1 + n2 = K) (hs : NoCross K n1 s) (hC : Localised M K n1 C) :
    ∃ r, transferReport coef1 coef2 coefP S oe false = .ok r ∧ r.jab = 0 ∧ r.sab = 0 ∧ r.jeff = 0 ∧
      calculateTransferIntegral coef1 coef2 coefP S oe false = .ok 0 := by
  obtain ⟨r, hr, e1, e2, e3, e4, e5, e6⟩ := C82_numbers h1 h2 hP hS hE (show Conforming false n1 n2 K from hK)
  have d : ∀ m, 1 ≤ m → m ≤ M → proj K K (zetaA false n1 u) s C m = 0 ∨ proj K K (zetaB false n1 v) s C m = 0 := by
    intro m hm hm'
    rcases hC m hm hm' with h | h
    · left
      refine Finset.sum_eq_zero fun p hp => Finset.sum_eq_zero fun q hq => ?_
      rw [mem_Icc] at hp hq
      simp only [zetaA, Bool.false_eq_true, if_false]
      by_cases cp : p ≤ n1
      · by_cases cq : q ≤ n1
        · rw [h q hq.1 cq, mul_zero]
        · rw [hs p q hp.1 hp.2 hq.1 hq.2 (by tauto)]; ring
      · rw [if_neg cp]; ring
    · right
      refine Finset.sum_eq_zero fun p hp => Finset.sum_eq_zero fun q hq => ?_
      rw [mem_Icc] at hp hq
      simp only [zetaB, Bool.false_eq_true, if_false]
      by_cases cp : p ≤ n1
      · rw [if_pos cp]; ring
      · by_cases cq : q ≤ n1
        · rw [hs p q hp.1 hp.2 hq.1 hq.2 (by tauto)]; ring
        · rw [h q (by omega) hq.2, mul_zero]
  obtain ⟨j, o, c⟩ := coupling_disjoint (E := E) d
  refine ⟨r, hr, e1.trans j, e4.trans o, e5.trans c, ?_⟩
  rw [e6, e5, c]

/-- A matrix without cross elements between the monomers. -/
theorem sandwich_cross {K n1 : Int} {A : Int → Int → α} (h : NoCross K n1 A) (u v : Int → α) :
    sandwich K (zetaA false n1 u) A (zetaB false n1 v) = 0 := by
  refine Finset.sum_eq_zero fun p hp => Finset.sum_eq_zero fun q hq => ?_
  rw [mem_Icc] at hp hq
  simp only [zetaA, zetaB, Bool.false_eq_true, if_false]
  by_cases cp : p ≤ n1
  · by_cases cq : q ≤ n1
    · rw [if_pos cq, mul_zero]
    · rw [h p q hp.1 hp.2 hq.1 hq.2 (by tauto)]; ring
  · rw [if_neg cp]; ring

/-- C139 (Fock): if neither the overlap nor the Fock matrix of the dimer has elements between the monomers, the coupling is zero, whichever orbitals were
chosen for the dimer - also if they extend over both, as the orbitals of two equal molecules may. -/
theorem C139_fock {coef1 coef2 coefP S oe : Mat α} {n1 n2 K : Int} {u v : Int → α} {C s F : Int → Int → α} {E : Int → α}
    (h1 : Values coef1 1 n1 (fun _ j => u j)) (h2 : Values coef2 1 n2 (fun _ j => v j)) (hP : Values coefP K K C)
    (hS : Values S K K s) (hE : VectorOf oe K E) (hK : n1 + n2 = K) (ho : Orthonormal K s C) (hF : Roothaan K F s C E)
    (hs : NoCross K n1 s) (hf : NoCross K n1 F) :
    ∃ r, transferReport coef1 coef2 coefP S oe false = .ok r ∧ r.jab = 0 ∧ r.sab = 0 ∧ r.jeff = 0 ∧
      calculateTransferIntegral coef1 coef2 coefP S oe false = .ok 0 := by
  obtain ⟨e1, e2⟩ := C132_fock h1 h2 hP hS hE (show Conforming false n1 n2 K from hK) ho hF
  have z1 := sandwich_cross hf u v
  have z2 := sandwich_cross hs u v
  have z : (fockReport K (zetaA false n1 u) (zetaB false n1 v) F s).jeff = 0 := by
    unfold fockReport
    simp only
    rw [z1, z2]
    ring
  exact ⟨_, e1, z1, z2, z, by rw [e2, z]⟩

end
end Verif
