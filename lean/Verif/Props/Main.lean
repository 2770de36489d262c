import Verif.MainLemmas
import Verif.CalcJ
/-
Property C79: what calc_J reports.
-/
namespace Verif
open Strings Readers QC Mat

section
variable {α β : Type} [Field α] [Num α] [DecidableEq β] {D : Type} [Args.Dbl D]

/-- A file that was read exists. -/
theorem readPun_exists {files : Str → Option Str} {fuel : Nat} {name : Str} {d : PunData α} (h : readPun files fuel name = .ok d) :
    (files name).isSome := by
  unfold readPun at h
  obtain ⟨-, -, h⟩ := Res.bind_eq_ok.1 h
  unfold Readers.read at h
  split at h
  · cases h
  · rename_i e; rw [e]; rfl

theorem readLog_exists {files : Str → Option Str} {fuel : Nat} {name : Str} {d : LogData α} (h : readLog files fuel name = .ok d) :
    (files name).isSome := by
  unfold readLog at h
  obtain ⟨-, -, h⟩ := Res.bind_eq_ok.1 h
  unfold Readers.read at h
  split at h
  · cases h
  · rename_i e; rw [e]; rfl

/-- The three log files all have a table of populations. -/
def HavePopulations (lrP lr1 lr2 : LogData α) : Prop :=
  lr1.getBasisFuncCount ≠ [] ∧ lr2.getBasisFuncCount ≠ [] ∧ lrP.getBasisFuncCount ≠ []

omit [Num α] in
/-- What a successful computation implies. -/
theorem couplingReport_inv (tos : α → β) (par : Params.Params) {prP pr1 pr2 : PunData α} {lrP lr1 lr2 : LogData α} (gP : GoodP prP)
    (g1 : GoodP pr1) (g2 : GoodP pr2) (gS : GoodS lrP) {J : Report α} (h : couplingReport tos par prP pr1 pr2 lrP lr1 lr2 = .ok J) :
    ∃ S coefP coef1 coef2 eP e1 e2 homo1 homo2 row1 row2,
      lrP.getOverlapMatrix = .ok S ∧ prP.getCoefsMatrix par.spinP = .ok coefP ∧ pr1.getCoefsMatrix par.spin1 = .ok coef1 ∧
      pr2.getCoefsMatrix par.spin2 = .ok coef2 ∧ lrP.getOE par.spinP = .ok eP ∧ lr1.getOE par.spin1 = .ok e1 ∧
      lr2.getOE par.spin2 = .ok e2 ∧ lr1.getHOMOLevel par.spin1 = .ok homo1 ∧ lr2.getHOMOLevel par.spin2 = .ok homo2 ∧
      NamesOrbital (e1.length, homo1) par.orbType1 par.orbNum1 row1 ∧ NamesOrbital (e2.length, homo2) par.orbType2 par.orbNum2 row2 ∧
      (¬ HavePopulations lrP lr1 lr2 → IsReport par.counterPoise coef1 coef2 coefP S eP row1 row2 J) ∧
      (HavePopulations lrP lr1 lr2 → ∃ (x1 x2 xP : Mat α) (T T' : TransferComplex α), ofVecVec lr1.getCoords = .ok x1 ∧ ofVecVec lr2.getCoords = .ok x2 ∧
        ofVecVec lrP.getCoords = .ok xP ∧ T.coef2 = coef2 ∧ T.coefP = coefP ∧ T.S = S ∧ T.cp = par.counterPoise ∧
        T.unscramble tos x1 x2 xP lrP.getBasisFuncCount lr2.getBasisFuncCount = .ok T' ∧
        IsReport par.counterPoise coef1 T'.coef2 T'.coefP T'.S eP row1 row2 J) := by
  unfold couplingReport at h
  obtain ⟨S, eS, h⟩ := Res.bind_eq_ok.1 h
  obtain ⟨coefP, ecP, h⟩ := Res.bind_eq_ok.1 h
  obtain ⟨eP, eeP, h⟩ := Res.bind_eq_ok.1 h
  obtain ⟨oeP, eoP, h⟩ := Res.bind_eq_ok.1 h
  obtain ⟨homo1, eh1, h⟩ := Res.bind_eq_ok.1 h
  obtain ⟨coef1, ec1, h⟩ := Res.bind_eq_ok.1 h
  obtain ⟨e1, ee1, h⟩ := Res.bind_eq_ok.1 h
  obtain ⟨oe1, eo1, h⟩ := Res.bind_eq_ok.1 h
  obtain ⟨homo2, eh2, h⟩ := Res.bind_eq_ok.1 h
  obtain ⟨coef2, ec2, h⟩ := Res.bind_eq_ok.1 h
  obtain ⟨e2, ee2, h⟩ := Res.bind_eq_ok.1 h
  obtain ⟨oe2, eo2, h⟩ := Res.bind_eq_ok.1 h
  obtain ⟨xP, exP, h⟩ := Res.bind_eq_ok.1 h
  obtain ⟨x1, ex1, h⟩ := Res.bind_eq_ok.1 h
  obtain ⟨x2, ex2, h⟩ := Res.bind_eq_ok.1 h
  obtain ⟨T, eT, h⟩ := Res.bind_eq_ok.1 h
  have r1 : oe1.rows = e1.length := by
    obtain ⟨m, em, hm⟩ := ofVec_rows e1; rw [eo1] at em; cases em; exact hm
  have r2 : oe2.rows = e2.length := by
    obtain ⟨m, em, hm⟩ := ofVec_rows e2; rw [eo2] at em; cases em; exact hm
  have loose : ∀ {d : PunData α} {sp m}, GoodP d → d.getCoefsMatrix sp = .ok m → Loose m := by
    intro d sp m g e
    unfold PunData.getCoefsMatrix at e
    split at e
    · rename_i e'; cases e; exact g _ _ e'
    · cases e
  have l1 := loose g1 ec1
  have l2 := loose g2 ec2
  have lP := loose gP ecP
  obtain ⟨n, hS⟩ : ∃ n, Sized n n S := by
    unfold LogData.getOverlapMatrix at eS
    split at eS
    · rename_i e'; cases eS; exact gS _ e'
    · cases eS
  have hT : T = ⟨coef1, coef2, coefP, (oe1.rows, homo1), (oe2.rows, homo2), S, oeP, false, par.counterPoise⟩ ∧ S.cols = coefP.cols := by
    obtain ⟨h1, h2⟩ := C34_ctor coef1 coef2 coefP (oe1.rows, homo1) (oe2.rows, homo2) S oeP par.counterPoise
    by_cases hok : S.cols = coefP.cols ∧
      if par.counterPoise then coef1.cols = coefP.cols ∧ coef2.cols = coefP.cols else coef1.cols + coef2.cols ≤ coefP.cols
    · rw [h1 hok] at eT; cases eT; exact ⟨rfl, hok.1⟩
    · rw [h2 hok] at eT; cases eT
  obtain ⟨hT, hcols⟩ := hT
  have hP : Sized coefP.rows n coefP := by
    have hn := hS.pos.2
    rw [hS.2.2.1] at hcols
    exact ⟨⟨lP.1, lP.2.1, by omega, by rw [lP.2.2]⟩, rfl, hcols.symm, lP.2.2⟩
  refine ⟨S, coefP, coef1, coef2, eP, e1, e2, homo1, homo2, ?_⟩
  by_cases hb : HavePopulations lrP lr1 lr2
  · have hb' : lr1.getBasisFuncCount.length ≠ 0 ∧ lr2.getBasisFuncCount.length ≠ 0 ∧ lrP.getBasisFuncCount.length ≠ 0 :=
      ⟨by simpa using hb.1, by simpa using hb.2.1, by simpa using hb.2.2⟩
    simp only [if_pos hb'] at h
    obtain ⟨T', eT', h⟩ := Res.bind_eq_ok.1 h
    obtain ⟨p1, p2, p3, p4, p5, p6, p7, p8⟩ := unscramble_post tos T x1 x2 xP lrP.getBasisFuncCount lr2.getBasisFuncCount T' eT'
    rw [hT] at p1 p2 p3 p4 p5 p6 p7 p8
    simp only at p1 p2 p3 p4 p5 p6 p7 p8
    have q2 : Loose T'.coef2 := by
      rcases p2 with p2 | p2
      · rw [p2]; exact l2
      · exact ⟨p2.1.toInit, by rw [p2.2.1]; exact l2.2.1, p2.2.2.2⟩
    rw [hP.2.2.1] at p3
    rw [hS.2.1, hS.2.2.1] at p4
    obtain ⟨k1, k2, m1, m2, row1, row2, t1, t2, o1, o2, n1, n2, hJ⟩ := calcJReport_inv (es := eP) (by rw [p5]; exact eoP)
      (by rw [p1]; exact l1) q2 p3 p4 h
    have ek1 : par.orbType1 = k1 := Option.some.inj t1
    have ek2 : par.orbType2 = k2 := Option.some.inj t2
    have em1 : par.orbNum1 = m1 := Option.some.inj o1
    have em2 : par.orbNum2 = m2 := Option.some.inj o2
    rw [p6, r1, ← ek1, ← em1] at n1
    rw [p7, r2, ← ek2, ← em2] at n2
    rw [p8, p1] at hJ
    exact ⟨row1, row2, eS, ecP, ec1, ec2, eeP, ee1, ee2, eh1, eh2, n1, n2, fun hn => absurd hb hn, fun _ =>
      ⟨x1, x2, xP, T, T', ex1, ex2, exP, by rw [hT], by rw [hT], by rw [hT], by rw [hT], eT', hJ⟩⟩
  · have hb' : ¬ (lr1.getBasisFuncCount.length ≠ 0 ∧ lr2.getBasisFuncCount.length ≠ 0 ∧ lrP.getBasisFuncCount.length ≠ 0) := by
      rintro ⟨c1, c2, c3⟩
      exact hb ⟨by simpa using c1, by simpa using c2, by simpa using c3⟩
    simp only [if_neg hb', Res.ok_bind] at h
    rw [hT] at h
    obtain ⟨k1, k2, m1, m2, row1, row2, t1, t2, o1, o2, n1, n2, hJ⟩ := calcJReport_inv (es := eP) eoP l1 l2 hP hS h
    have ek1 : par.orbType1 = k1 := Option.some.inj t1
    have ek2 : par.orbType2 = k2 := Option.some.inj t2
    have em1 : par.orbNum1 = m1 := Option.some.inj o1
    have em2 : par.orbNum2 = m2 := Option.some.inj o2
    simp only [r1, ← ek1, ← em1] at n1
    simp only [r2, ← ek2, ← em2] at n2
    exact ⟨row1, row2, eS, ecP, ec1, ec2, eeP, ee1, ee2, eh1, eh2, n1, n2, fun _ => hJ, fun hn => absurd hn hb⟩

omit [Num α] in
/-- C79: the number is determined by the matrices, the energies and the orbitals. -/
theorem C79_determined {cp : Bool} {coef1 coef2 coefP S : Mat α} {E : List α} {row1 row2 : Int} {J J' : α}
    (h : IsCoupling cp coef1 coef2 coefP S E row1 row2 J) (h' : IsCoupling cp coef1 coef2 coefP S E row1 row2 J') : J = J' := by
  obtain ⟨N1, n1, N2, n2, M, N, K, c1, c2, C, s, v1, v2, vP, vS, hE, hc, a1, a2, b1, b2, rfl⟩ := h
  obtain ⟨N1', n1', N2', n2', M', N', K', c1', c2', C', s', v1', v2', vP', vS', hE', hc', a1', a2', b1', b2', rfl⟩ := h'
  obtain rfl : N1 = N1' := v1.rows.symm.trans v1'.rows
  obtain rfl : n1 = n1' := v1.cols.symm.trans v1'.cols
  obtain rfl : N2 = N2' := v2.rows.symm.trans v2'.rows
  obtain rfl : n2 = n2' := v2.cols.symm.trans v2'.cols
  obtain rfl : M = M' := vP.rows.symm.trans vP'.rows
  obtain rfl : N = N' := vP.cols.symm.trans vP'.cols
  obtain rfl : K = K' := vS.rows.symm.trans vS'.rows
  have same : ∀ {m : Mat α} {r c : Int} {f g : Int → Int → α}, Values m r c f → Values m r c g →
      ∀ i j, 1 ≤ i → i ≤ r → 1 ≤ j → j ≤ c → f i j = g i j := by
    intro m r c f g hf hg i j i1 i2 j1 j2
    have e := hf.val i j i1 i2 j1 j2
    rw [hg.val i j i1 i2 j1 j2] at e
    exact (Res.ok.inj e).symm
  have conf : cp = true → n1 = K ∧ n2 = K := by intro hcp; subst hcp; exact hc
  have conf' : cp = false → n1 + n2 = K := by intro hcp; subst hcp; exact hc
  have hpos := v1.pos
  apply coupling_congr
  · intro m m1 m2
    refine Finset.sum_congr rfl fun p hp => Finset.sum_congr rfl fun q hq => ?_
    rw [Finset.mem_Icc] at hp hq
    rw [same vS vS' p q hp.1 hp.2 hq.1 hq.2, same vP vP' m q m1 m2 hq.1 hq.2]
    congr 2
    unfold zetaA
    by_cases hcp : cp = true
    · rw [if_pos hcp, if_pos hcp]; exact same v1 v1' _ _ a1 a2 hp.1 (by rw [(conf hcp).1]; exact hp.2)
    · rw [if_neg hcp, if_neg hcp]
      by_cases hle : p ≤ n1
      · rw [if_pos hle, if_pos hle]; exact same v1 v1' _ _ a1 a2 hp.1 hle
      · rw [if_neg hle, if_neg hle]
  · intro m m1 m2
    refine Finset.sum_congr rfl fun p hp => Finset.sum_congr rfl fun q hq => ?_
    rw [Finset.mem_Icc] at hp hq
    rw [same vS vS' p q hp.1 hp.2 hq.1 hq.2, same vP vP' m q m1 m2 hq.1 hq.2]
    congr 2
    unfold zetaB
    by_cases hcp : cp = true
    · rw [if_pos hcp, if_pos hcp]; exact same v2 v2' _ _ b1 b2 hp.1 (by rw [(conf hcp).2]; exact hp.2)
    · rw [if_neg hcp, if_neg hcp]
      by_cases hle : p ≤ n1
      · rw [if_pos hle, if_pos hle]
      · rw [if_neg hle, if_neg hle]
        have := conf' (by simpa using hcp)
        exact same v2 v2' _ _ b1 b2 (by omega) (by omega)

/-- C82 (printed numbers): if calc_J completes, its arguments were accepted, the six files exist and were read, the orbitals asked for
exist, and the numbers printed are those of these orbitals: with the dimer's matrices as they were read if a log file has no table of
populations, and otherwise with those `unscramble` makes of them (see C79_aligned). -/
theorem C82_sound (tos : α → β) (files : Str → Option Str) (fuel : Nat) (args : List Str) {par : Params.Params} {r : Report α}
    (h : calcJRun D tos files fuel args = .ok (par, r)) :
    ∃ (q : Args.Parser D), Args.parse (fsOf files) Args.calcJ args = .ok q ∧ Args.prepareParameters q = .ok par ∧
      (∀ name ∈ [par.punP, par.pun1, par.pun2, par.logP, par.log1, par.log2], (files name).isSome) ∧
      ∃ (prP pr1 pr2 : PunData α) (lrP lr1 lr2 : LogData α),
        readPun files fuel par.punP = .ok prP ∧ readPun files fuel par.pun1 = .ok pr1 ∧ readPun files fuel par.pun2 = .ok pr2 ∧
        readLog files fuel par.logP = .ok lrP ∧ readLog files fuel par.log1 = .ok lr1 ∧ readLog files fuel par.log2 = .ok lr2 ∧
        ∃ S coefP coef1 coef2 eP e1 e2 homo1 homo2 row1 row2,
          lrP.getOverlapMatrix = .ok S ∧ prP.getCoefsMatrix par.spinP = .ok coefP ∧ pr1.getCoefsMatrix par.spin1 = .ok coef1 ∧
          pr2.getCoefsMatrix par.spin2 = .ok coef2 ∧ lrP.getOE par.spinP = .ok eP ∧ lr1.getOE par.spin1 = .ok e1 ∧
          lr2.getOE par.spin2 = .ok e2 ∧ lr1.getHOMOLevel par.spin1 = .ok homo1 ∧ lr2.getHOMOLevel par.spin2 = .ok homo2 ∧
          NamesOrbital (e1.length, homo1) par.orbType1 par.orbNum1 row1 ∧ NamesOrbital (e2.length, homo2) par.orbType2 par.orbNum2 row2 ∧
          (¬ HavePopulations lrP lr1 lr2 → IsReport par.counterPoise coef1 coef2 coefP S eP row1 row2 r) ∧
          (HavePopulations lrP lr1 lr2 → ∃ (x1 x2 xP : Mat α) (T T' : TransferComplex α), ofVecVec lr1.getCoords = .ok x1 ∧
            ofVecVec lr2.getCoords = .ok x2 ∧ ofVecVec lrP.getCoords = .ok xP ∧ T.coef2 = coef2 ∧ T.coefP = coefP ∧ T.S = S ∧
            T.cp = par.counterPoise ∧ T.unscramble tos x1 x2 xP lrP.getBasisFuncCount lr2.getBasisFuncCount = .ok T' ∧
            IsReport par.counterPoise coef1 T'.coef2 T'.coefP T'.S eP row1 row2 r) := by
  unfold calcJRun at h
  rw [Args.prepareParser_ok, Res.ok_bind] at h
  obtain ⟨q, eq, h⟩ := Res.bind_eq_ok.1 h
  obtain ⟨par', epar, h⟩ := Res.bind_eq_ok.1 h
  obtain ⟨x, ex, h⟩ := Res.bind_eq_ok.1 h
  unfold readFiles at ex
  obtain ⟨prP, eprP, ex⟩ := Res.bind_eq_ok.1 ex
  obtain ⟨pr1, epr1, ex⟩ := Res.bind_eq_ok.1 ex
  obtain ⟨pr2, epr2, ex⟩ := Res.bind_eq_ok.1 ex
  obtain ⟨lrP, elrP, ex⟩ := Res.bind_eq_ok.1 ex
  obtain ⟨lr1, elr1, ex⟩ := Res.bind_eq_ok.1 ex
  obtain ⟨lr2, elr2, ex⟩ := Res.bind_eq_ok.1 ex
  cases ex
  obtain ⟨r', er, h⟩ := Res.bind_eq_ok.1 h
  cases h
  refine ⟨q, eq, epar, ?_, prP, pr1, pr2, lrP, lr1, lr2, eprP, epr1, epr2, elrP, elr1, elr2, ?_⟩
  · intro name hname
    simp only [List.mem_cons, List.not_mem_nil, or_false] at hname
    rcases hname with rfl | rfl | rfl | rfl | rfl | rfl
    · exact readPun_exists eprP
    · exact readPun_exists epr1
    · exact readPun_exists epr2
    · exact readLog_exists elrP
    · exact readLog_exists elr1
    · exact readLog_exists elr2
  · exact couplingReport_inv tos par ((readPun_safe _ _ _).2 _ eprP) ((readPun_safe _ _ _).2 _ epr1) ((readPun_safe _ _ _).2 _ epr2)
      ((readLog_safe _ _ _).2 _ elrP) er

/-- C79 (soundness): if calc_J completes, its arguments were accepted, the six files exist and were read, the orbitals asked for
exist, and the number computed is their coupling: with the dimer's matrices as they were read if a log file has no table of
populations, and otherwise with those `unscramble` makes of them (see C79_aligned). -/
theorem C79_sound (tos : α → β) (files : Str → Option Str) (fuel : Nat) (args : List Str) {J : α}
    (h : calcJMain D tos files fuel args = .ok J) :
    ∃ (q : Args.Parser D) (par : Params.Params), Args.parse (fsOf files) Args.calcJ args = .ok q ∧ Args.prepareParameters q = .ok par ∧
      (∀ name ∈ [par.punP, par.pun1, par.pun2, par.logP, par.log1, par.log2], (files name).isSome) ∧
      ∃ (prP pr1 pr2 : PunData α) (lrP lr1 lr2 : LogData α),
        readPun files fuel par.punP = .ok prP ∧ readPun files fuel par.pun1 = .ok pr1 ∧ readPun files fuel par.pun2 = .ok pr2 ∧
        readLog files fuel par.logP = .ok lrP ∧ readLog files fuel par.log1 = .ok lr1 ∧ readLog files fuel par.log2 = .ok lr2 ∧
        ∃ S coefP coef1 coef2 eP e1 e2 homo1 homo2 row1 row2,
          lrP.getOverlapMatrix = .ok S ∧ prP.getCoefsMatrix par.spinP = .ok coefP ∧ pr1.getCoefsMatrix par.spin1 = .ok coef1 ∧
          pr2.getCoefsMatrix par.spin2 = .ok coef2 ∧ lrP.getOE par.spinP = .ok eP ∧ lr1.getOE par.spin1 = .ok e1 ∧
          lr2.getOE par.spin2 = .ok e2 ∧ lr1.getHOMOLevel par.spin1 = .ok homo1 ∧ lr2.getHOMOLevel par.spin2 = .ok homo2 ∧
          NamesOrbital (e1.length, homo1) par.orbType1 par.orbNum1 row1 ∧ NamesOrbital (e2.length, homo2) par.orbType2 par.orbNum2 row2 ∧
          (¬ HavePopulations lrP lr1 lr2 → IsCoupling par.counterPoise coef1 coef2 coefP S eP row1 row2 J) ∧
          (HavePopulations lrP lr1 lr2 → ∃ (x1 x2 xP : Mat α) (T T' : TransferComplex α), ofVecVec lr1.getCoords = .ok x1 ∧
            ofVecVec lr2.getCoords = .ok x2 ∧ ofVecVec lrP.getCoords = .ok xP ∧ T.coef2 = coef2 ∧ T.coefP = coefP ∧ T.S = S ∧
            T.cp = par.counterPoise ∧ T.unscramble tos x1 x2 xP lrP.getBasisFuncCount lr2.getBasisFuncCount = .ok T' ∧
            IsCoupling par.counterPoise coef1 T'.coef2 T'.coefP T'.S eP row1 row2 J) := by
  unfold calcJMain at h
  obtain ⟨⟨par, r⟩, e, h⟩ := Res.bind_eq_ok.1 h
  obtain rfl : r.jeff = J := Res.ok.inj h
  obtain ⟨q, h1, h2, h3, prP, pr1, pr2, lrP, lr1, lr2, g1, g2, g3, g4, g5, g6, S, coefP, coef1, coef2, eP, e1, e2, homo1, homo2, row1, row2,
    k1, k2, k3, k4, k5, k6, k7, k8, k9, k10, k11, k12, k13⟩ := C82_sound tos files fuel args e
  refine ⟨q, par, h1, h2, h3, prP, pr1, pr2, lrP, lr1, lr2, g1, g2, g3, g4, g5, g6, S, coefP, coef1, coef2, eP, e1, e2, homo1, homo2, row1, row2,
    k1, k2, k3, k4, k5, k6, k7, k8, k9, k10, k11, fun hn => (k12 hn).coupling, fun hn => ?_⟩
  obtain ⟨x1, x2, xP, T, T', a1, a2, a3, a4, a5, a6, a7, a8, a9⟩ := k13 hn
  exact ⟨x1, x2, xP, T, T', a1, a2, a3, a4, a5, a6, a7, a8, a9.coupling⟩

end
end Verif
