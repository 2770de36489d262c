import Verif.Props.Main
import Verif.Props.Machine
import Verif.Spec.MachineRun
/-
C146: what every run of calc_J prints, in the arithmetic of the machine.
-/
namespace Verif
namespace QC
open Mat
variable {α : Type}

/-- What `calcJ` computes when it returns. -/
theorem calcJReport_machine [Zero α] [One α] [Add α] [Sub α] [Mul α] [Div α] {T : TransferComplex α} {es : List α} (hoe : ofVec es = .ok T.oe) (h1 : Readers.Loose T.coef1)
    (h2 : Readers.Loose T.coef2) {M N K : Int} (hP : Sized M N T.coefP) (hS : Sized K N T.S) {orbtype : Str → Option Str}
    {orbnum : Str → Option Int} {J : Report α} (h : T.calcJReport orbtype orbnum = .ok J) :
    ∃ k1 k2 m1 m2 row1 row2, orbtype "mon1".toList = some k1 ∧ orbtype "mon2".toList = some k2 ∧
      orbnum "mon1".toList = some m1 ∧ orbnum "mon2".toList = some m2 ∧
      NamesOrbital T.orbs1 k1 m1 row1 ∧ NamesOrbital T.orbs2 k2 m2 row2 ∧
      MachineReport T.cp T.coef1 T.coef2 T.coefP T.S es row1 row2 J := by
  have h' := h
  unfold TransferComplex.calcJReport at h'
  obtain ⟨d1, -, h'⟩ := Res.bind_eq_ok.1 h'
  obtain ⟨d2, -, h'⟩ := Res.bind_eq_ok.1 h'
  obtain ⟨k1, ek1, h'⟩ := Res.bind_eq_ok.1 h'
  obtain ⟨m1, em1, h'⟩ := Res.bind_eq_ok.1 h'
  obtain ⟨r1, er1, h'⟩ := Res.bind_eq_ok.1 h'
  obtain ⟨x1, -, h'⟩ := Res.bind_eq_ok.1 h'
  obtain ⟨k2, ek2, h'⟩ := Res.bind_eq_ok.1 h'
  obtain ⟨m2, em2, h'⟩ := Res.bind_eq_ok.1 h'
  obtain ⟨r2, er2, h'⟩ := Res.bind_eq_ok.1 h'
  obtain ⟨x2, -, h'⟩ := Res.bind_eq_ok.1 h'
  have hne : es ≠ [] := by
    rintro rfl
    rw [ofVec_nil] at hoe
    cases hoe' : T.oe with
    | mk a b c d =>
      obtain ⟨e, he⟩ := transfer_diag (calculate_of_report h')
      rw [← Res.ok.inj hoe, diag_ofVec_nil] at he
      cases he
  obtain ⟨row1, n1, g1⟩ := selectRow_inv er1
  obtain ⟨row2, n2, g2⟩ := selectRow_inv er2
  obtain ⟨a1, a2, a3⟩ := getRow_inv h1 g1
  obtain ⟨b1, b2, b3⟩ := getRow_inv h2 g2
  obtain ⟨c1, v1⟩ := Values.of_sized (m := T.coef1) (r := _) (c := _) ⟨⟨h1.1, h1.2.1, a3, by rw [h1.2.2]⟩, rfl, rfl, h1.2.2⟩
  obtain ⟨c2, v2⟩ := Values.of_sized (m := T.coef2) (r := _) (c := _) ⟨⟨h2.1, h2.2.1, b3, by rw [h2.2.2]⟩, rfl, rfl, h2.2.2⟩
  obtain ⟨C, vP⟩ := Values.of_sized hP
  obtain ⟨s, vS⟩ := Values.of_sized hS
  obtain ⟨oe, eoe, hE⟩ := ofVec_vector es hne
  rw [hoe] at eoe
  cases eoe
  have t1 := mapAt_inv ek1
  have t2 := mapAt_inv ek2
  have o1 := mapAt_inv em1
  have o2 := mapAt_inv em2
  refine ⟨k1, k2, m1, m2, row1, row2, t1, t2, o1, o2, n1, n2, ?_⟩
  have hc : Conforming T.cp T.coef1.cols T.coef2.cols K ∧ (es.length : Int) = M := by
    by_contra hc
    obtain ⟨a, b, ha, hb, e⟩ := C32_report_rows T v1 v2 orbtype orbnum t1 t2 o1 o2 n1 n2 ⟨a1, a2⟩ ⟨b1, b2⟩
    have e' := C34_refuted_general ha hb vP vS hE hc
    rw [e] at h
    rw [calculate_of_report h] at e'
    cases e'
  obtain ⟨hc, rfl⟩ := hc
  refine ⟨_, _, _, _, _, N, K, c1, c2, C, s, v1, v2, vP, vS, rfl, hc, a1, a2, b1, b2, ?_⟩
  obtain ⟨a, b, ha, hb, e⟩ := C32_report_rows T v1 v2 orbtype orbnum t1 t2 o1 o2 n1 n2 ⟨a1, a2⟩ ⟨b1, b2⟩
  rw [C99_report ha hb vP vS hE hc] at e
  rw [e] at h
  exact (Res.ok.inj h).symm

end QC
open Strings Readers QC Mat

section
variable {α β : Type} [Zero α] [One α] [Add α] [Sub α] [Mul α] [Div α] [Num α] [DecidableEq β] {D : Type} [Args.Dbl D]

/-- These are the tables calc_J computes with for the parameters `par`: those the readers found, after the dimer's atoms were matched if the populations were
in the files; and `row1`, `row2` are the orbitals asked for. -/
def TablesOf (tos : α → β) (files : Str → Option Str) (fuel : Nat) (par : Params.Params) (coef1 coef2 coefP S : Mat α) (eP : List α) (row1 row2 : Int) : Prop :=
  ∃ (prP pr1 pr2 : PunData α) (lrP lr1 lr2 : LogData α),
    readPun files fuel par.punP = .ok prP ∧ readPun files fuel par.pun1 = .ok pr1 ∧ readPun files fuel par.pun2 = .ok pr2 ∧
    readLog files fuel par.logP = .ok lrP ∧ readLog files fuel par.log1 = .ok lr1 ∧ readLog files fuel par.log2 = .ok lr2 ∧
    ∃ S₀ coefP₀ coef2₀ e1 e2 homo1 homo2,
      lrP.getOverlapMatrix = .ok S₀ ∧ prP.getCoefsMatrix par.spinP = .ok coefP₀ ∧ pr1.getCoefsMatrix par.spin1 = .ok coef1 ∧
      pr2.getCoefsMatrix par.spin2 = .ok coef2₀ ∧ lrP.getOE par.spinP = .ok eP ∧ lr1.getOE par.spin1 = .ok e1 ∧
      lr2.getOE par.spin2 = .ok e2 ∧ lr1.getHOMOLevel par.spin1 = .ok homo1 ∧ lr2.getHOMOLevel par.spin2 = .ok homo2 ∧
      NamesOrbital (e1.length, homo1) par.orbType1 par.orbNum1 row1 ∧ NamesOrbital (e2.length, homo2) par.orbType2 par.orbNum2 row2 ∧
      (¬ HavePopulations lrP lr1 lr2 → coef2 = coef2₀ ∧ coefP = coefP₀ ∧ S = S₀) ∧
      (HavePopulations lrP lr1 lr2 → ∃ (x1 x2 xP : Mat α) (T T' : TransferComplex α), ofVecVec lr1.getCoords = .ok x1 ∧
        ofVecVec lr2.getCoords = .ok x2 ∧ ofVecVec lrP.getCoords = .ok xP ∧ T.coef2 = coef2₀ ∧ T.coefP = coefP₀ ∧ T.S = S₀ ∧
        T.cp = par.counterPoise ∧ T.unscramble tos x1 x2 xP lrP.getBasisFuncCount lr2.getBasisFuncCount = .ok T' ∧
        coef2 = T'.coef2 ∧ coefP = T'.coefP ∧ S = T'.S)

/-- A file that was read exists. -/
theorem readPun_exists' {files : Str → Option Str} {fuel : Nat} {name : Str} {d : PunData α} (h : readPun files fuel name = .ok d) :
    (files name).isSome := by
  unfold readPun at h
  obtain ⟨-, -, h⟩ := Res.bind_eq_ok.1 h
  unfold Readers.read at h
  split at h
  · cases h
  · rename_i e; rw [e]; rfl

theorem readLog_exists' {files : Str → Option Str} {fuel : Nat} {name : Str} {d : LogData α} (h : readLog files fuel name = .ok d) :
    (files name).isSome := by
  unfold readLog at h
  obtain ⟨-, -, h⟩ := Res.bind_eq_ok.1 h
  unfold Readers.read at h
  split at h
  · cases h
  · rename_i e; rw [e]; rfl

omit [Num α] in
/-- What a successful computation implies. -/
theorem couplingReport_machine (tos : α → β) (par : Params.Params) {prP pr1 pr2 : PunData α} {lrP lr1 lr2 : LogData α} (gP : GoodP prP)
    (g1 : GoodP pr1) (g2 : GoodP pr2) (gS : GoodS lrP) {J : Report α} (h : couplingReport tos par prP pr1 pr2 lrP lr1 lr2 = .ok J) :
    ∃ S coefP coef1 coef2 eP e1 e2 homo1 homo2 row1 row2,
      lrP.getOverlapMatrix = .ok S ∧ prP.getCoefsMatrix par.spinP = .ok coefP ∧ pr1.getCoefsMatrix par.spin1 = .ok coef1 ∧
      pr2.getCoefsMatrix par.spin2 = .ok coef2 ∧ lrP.getOE par.spinP = .ok eP ∧ lr1.getOE par.spin1 = .ok e1 ∧
      lr2.getOE par.spin2 = .ok e2 ∧ lr1.getHOMOLevel par.spin1 = .ok homo1 ∧ lr2.getHOMOLevel par.spin2 = .ok homo2 ∧
      NamesOrbital (e1.length, homo1) par.orbType1 par.orbNum1 row1 ∧ NamesOrbital (e2.length, homo2) par.orbType2 par.orbNum2 row2 ∧
      (¬ HavePopulations lrP lr1 lr2 → MachineReport par.counterPoise coef1 coef2 coefP S eP row1 row2 J) ∧
      (HavePopulations lrP lr1 lr2 → ∃ (x1 x2 xP : Mat α) (T T' : TransferComplex α), ofVecVec lr1.getCoords = .ok x1 ∧ ofVecVec lr2.getCoords = .ok x2 ∧
        ofVecVec lrP.getCoords = .ok xP ∧ T.coef2 = coef2 ∧ T.coefP = coefP ∧ T.S = S ∧ T.cp = par.counterPoise ∧
        T.unscramble tos x1 x2 xP lrP.getBasisFuncCount lr2.getBasisFuncCount = .ok T' ∧
        MachineReport par.counterPoise coef1 T'.coef2 T'.coefP T'.S eP row1 row2 J) := by
  unfold couplingReport at h
  obtain ⟨S, eS, h⟩ := Res.bind_eq_ok.1 h
  obtain ⟨coefP, ecP, h⟩ := Res.bind_eq_ok.1 h
  obtain ⟨eP, eeP, h⟩ := Res.bind_eq_ok.1 h
  obtain ⟨oeP, eoP, h⟩ := Res.bind_eq_ok.1 h
  obtain ⟨homo1, eh1, h⟩ := Res.bind_eq_ok.1 h
  obtain ⟨coef1, ec1, h⟩ := Res.bind_eq_ok.1 h
  obtain ⟨e1, ee1, h⟩ := Res.bind_eq_ok.1 h
  obtain ⟨oe1, eo1, h⟩ := Res.bind_eq_ok.1 h
  obtain ⟨homo2, eh2, h⟩ := Res.bind_eq_ok.1 h
  obtain ⟨coef2, ec2, h⟩ := Res.bind_eq_ok.1 h
  obtain ⟨e2, ee2, h⟩ := Res.bind_eq_ok.1 h
  obtain ⟨oe2, eo2, h⟩ := Res.bind_eq_ok.1 h
  obtain ⟨xP, exP, h⟩ := Res.bind_eq_ok.1 h
  obtain ⟨x1, ex1, h⟩ := Res.bind_eq_ok.1 h
  obtain ⟨x2, ex2, h⟩ := Res.bind_eq_ok.1 h
  obtain ⟨T, eT, h⟩ := Res.bind_eq_ok.1 h
  have r1 : oe1.rows = e1.length := by
    obtain ⟨m, em, hm⟩ := ofVec_rows e1; rw [eo1] at em; cases em; exact hm
  have r2 : oe2.rows = e2.length := by
    obtain ⟨m, em, hm⟩ := ofVec_rows e2; rw [eo2] at em; cases em; exact hm
  have loose : ∀ {d : PunData α} {sp m}, GoodP d → d.getCoefsMatrix sp = .ok m → Loose m := by
    intro d sp m g e
    unfold PunData.getCoefsMatrix at e
    split at e
    · rename_i e'; cases e; exact g _ _ e'
    · cases e
  have l1 := loose g1 ec1
  have l2 := loose g2 ec2
  have lP := loose gP ecP
  obtain ⟨n, hS⟩ : ∃ n, Sized n n S := by
    unfold LogData.getOverlapMatrix at eS
    split at eS
    · rename_i e'; cases eS; exact gS _ e'
    · cases eS
  have hT : T = ⟨coef1, coef2, coefP, (oe1.rows, homo1), (oe2.rows, homo2), S, oeP, false, par.counterPoise⟩ ∧ S.cols = coefP.cols := by
    obtain ⟨h1, h2⟩ := C34_ctor coef1 coef2 coefP (oe1.rows, homo1) (oe2.rows, homo2) S oeP par.counterPoise
    by_cases hok : S.cols = coefP.cols ∧
      if par.counterPoise then coef1.cols = coefP.cols ∧ coef2.cols = coefP.cols else coef1.cols + coef2.cols ≤ coefP.cols
    · rw [h1 hok] at eT; cases eT; exact ⟨rfl, hok.1⟩
    · rw [h2 hok] at eT; cases eT
  obtain ⟨hT, hcols⟩ := hT
  have hP : Sized coefP.rows n coefP := by
    have hn := hS.pos.2
    rw [hS.2.2.1] at hcols
    exact ⟨⟨lP.1, lP.2.1, by omega, by rw [lP.2.2]⟩, rfl, hcols.symm, lP.2.2⟩
  refine ⟨S, coefP, coef1, coef2, eP, e1, e2, homo1, homo2, ?_⟩
  by_cases hb : HavePopulations lrP lr1 lr2
  · have hb' : lr1.getBasisFuncCount.length ≠ 0 ∧ lr2.getBasisFuncCount.length ≠ 0 ∧ lrP.getBasisFuncCount.length ≠ 0 :=
      ⟨by simpa using hb.1, by simpa using hb.2.1, by simpa using hb.2.2⟩
    simp only [if_pos hb'] at h
    obtain ⟨T', eT', h⟩ := Res.bind_eq_ok.1 h
    obtain ⟨p1, p2, p3, p4, p5, p6, p7, p8⟩ := unscramble_post tos T x1 x2 xP lrP.getBasisFuncCount lr2.getBasisFuncCount T' eT'
    rw [hT] at p1 p2 p3 p4 p5 p6 p7 p8
    simp only at p1 p2 p3 p4 p5 p6 p7 p8
    have q2 : Loose T'.coef2 := by
      rcases p2 with p2 | p2
      · rw [p2]; exact l2
      · exact ⟨p2.1.toInit, by rw [p2.2.1]; exact l2.2.1, p2.2.2.2⟩
    rw [hP.2.2.1] at p3
    rw [hS.2.1, hS.2.2.1] at p4
    obtain ⟨k1, k2, m1, m2, row1, row2, t1, t2, o1, o2, n1, n2, hJ⟩ := calcJReport_machine (es := eP) (by rw [p5]; exact eoP)
      (by rw [p1]; exact l1) q2 p3 p4 h
    have ek1 : par.orbType1 = k1 := Option.some.inj t1
    have ek2 : par.orbType2 = k2 := Option.some.inj t2
    have em1 : par.orbNum1 = m1 := Option.some.inj o1
    have em2 : par.orbNum2 = m2 := Option.some.inj o2
    rw [p6, r1, ← ek1, ← em1] at n1
    rw [p7, r2, ← ek2, ← em2] at n2
    rw [p8, p1] at hJ
    exact ⟨row1, row2, eS, ecP, ec1, ec2, eeP, ee1, ee2, eh1, eh2, n1, n2, fun hn => absurd hb hn, fun _ =>
      ⟨x1, x2, xP, T, T', ex1, ex2, exP, by rw [hT], by rw [hT], by rw [hT], by rw [hT], eT', hJ⟩⟩
  · have hb' : ¬ (lr1.getBasisFuncCount.length ≠ 0 ∧ lr2.getBasisFuncCount.length ≠ 0 ∧ lrP.getBasisFuncCount.length ≠ 0) := by
      rintro ⟨c1, c2, c3⟩
      exact hb ⟨by simpa using c1, by simpa using c2, by simpa using c3⟩
    simp only [if_neg hb', Res.ok_bind] at h
    rw [hT] at h
    obtain ⟨k1, k2, m1, m2, row1, row2, t1, t2, o1, o2, n1, n2, hJ⟩ := calcJReport_machine (es := eP) eoP l1 l2 hP hS h
    have ek1 : par.orbType1 = k1 := Option.some.inj t1
    have ek2 : par.orbType2 = k2 := Option.some.inj t2
    have em1 : par.orbNum1 = m1 := Option.some.inj o1
    have em2 : par.orbNum2 = m2 := Option.some.inj o2
    simp only [r1, ← ek1, ← em1] at n1
    simp only [r2, ← ek2, ← em2] at n2
    exact ⟨row1, row2, eS, ecP, ec1, ec2, eeP, ee1, ee2, eh1, eh2, n1, n2, fun _ => hJ, fun hn => absurd hn hb⟩

/-- C146 (in full): every run of calc_J that ends normally understood its arguments, found and read all six files, and prints - whatever the arithmetic - the
numbers of the machine for the orbitals asked for, computed from the tables the readers found (after the atoms were matched, if all log files have
populations): no law of arithmetic is used, and no operation of the machine is left out, repeated or done in another order. -/
theorem C146_sound (tos : α → β) (files : Str → Option Str) (fuel : Nat) (args : List Str) {par : Params.Params} {r : Report α}
    (h : calcJRun D tos files fuel args = .ok (par, r)) :
    ∃ (q : Args.Parser D), Args.parse (fsOf files) Args.calcJ args = .ok q ∧ Args.prepareParameters q = .ok par ∧
      (∀ name ∈ [par.punP, par.pun1, par.pun2, par.logP, par.log1, par.log2], (files name).isSome) ∧
      ∃ (prP pr1 pr2 : PunData α) (lrP lr1 lr2 : LogData α),
        readPun files fuel par.punP = .ok prP ∧ readPun files fuel par.pun1 = .ok pr1 ∧ readPun files fuel par.pun2 = .ok pr2 ∧
        readLog files fuel par.logP = .ok lrP ∧ readLog files fuel par.log1 = .ok lr1 ∧ readLog files fuel par.log2 = .ok lr2 ∧
        ∃ S coefP coef1 coef2 eP e1 e2 homo1 homo2 row1 row2,
          lrP.getOverlapMatrix = .ok S ∧ prP.getCoefsMatrix par.spinP = .ok coefP ∧ pr1.getCoefsMatrix par.spin1 = .ok coef1 ∧
          pr2.getCoefsMatrix par.spin2 = .ok coef2 ∧ lrP.getOE par.spinP = .ok eP ∧ lr1.getOE par.spin1 = .ok e1 ∧
          lr2.getOE par.spin2 = .ok e2 ∧ lr1.getHOMOLevel par.spin1 = .ok homo1 ∧ lr2.getHOMOLevel par.spin2 = .ok homo2 ∧
          NamesOrbital (e1.length, homo1) par.orbType1 par.orbNum1 row1 ∧ NamesOrbital (e2.length, homo2) par.orbType2 par.orbNum2 row2 ∧
          (¬ HavePopulations lrP lr1 lr2 → MachineReport par.counterPoise coef1 coef2 coefP S eP row1 row2 r) ∧
          (HavePopulations lrP lr1 lr2 → ∃ (x1 x2 xP : Mat α) (T T' : TransferComplex α), ofVecVec lr1.getCoords = .ok x1 ∧
            ofVecVec lr2.getCoords = .ok x2 ∧ ofVecVec lrP.getCoords = .ok xP ∧ T.coef2 = coef2 ∧ T.coefP = coefP ∧ T.S = S ∧
            T.cp = par.counterPoise ∧ T.unscramble tos x1 x2 xP lrP.getBasisFuncCount lr2.getBasisFuncCount = .ok T' ∧
            MachineReport par.counterPoise coef1 T'.coef2 T'.coefP T'.S eP row1 row2 r) := by
  unfold calcJRun at h
  rw [Args.prepareParser_ok, Res.ok_bind] at h
  obtain ⟨q, eq, h⟩ := Res.bind_eq_ok.1 h
  obtain ⟨par', epar, h⟩ := Res.bind_eq_ok.1 h
  obtain ⟨x, ex, h⟩ := Res.bind_eq_ok.1 h
  unfold readFiles at ex
  obtain ⟨prP, eprP, ex⟩ := Res.bind_eq_ok.1 ex
  obtain ⟨pr1, epr1, ex⟩ := Res.bind_eq_ok.1 ex
  obtain ⟨pr2, epr2, ex⟩ := Res.bind_eq_ok.1 ex
  obtain ⟨lrP, elrP, ex⟩ := Res.bind_eq_ok.1 ex
  obtain ⟨lr1, elr1, ex⟩ := Res.bind_eq_ok.1 ex
  obtain ⟨lr2, elr2, ex⟩ := Res.bind_eq_ok.1 ex
  cases ex
  obtain ⟨r', er, h⟩ := Res.bind_eq_ok.1 h
  cases h
  refine ⟨q, eq, epar, ?_, prP, pr1, pr2, lrP, lr1, lr2, eprP, epr1, epr2, elrP, elr1, elr2, ?_⟩
  · intro name hname
    simp only [List.mem_cons, List.not_mem_nil, or_false] at hname
    rcases hname with rfl | rfl | rfl | rfl | rfl | rfl
    · exact readPun_exists' eprP
    · exact readPun_exists' epr1
    · exact readPun_exists' epr2
    · exact readLog_exists' elrP
    · exact readLog_exists' elr1
    · exact readLog_exists' elr2
  · exact couplingReport_machine tos par ((readPun_safe _ _ _).2 _ eprP) ((readPun_safe _ _ _).2 _ epr1) ((readPun_safe _ _ _).2 _ epr2)
      ((readLog_safe _ _ _).2 _ elrP) er

/-- C146: every run of calc_J that ends normally has such tables, and prints the machine's numbers of them. -/
theorem C146_run (tos : α → β) (files : Str → Option Str) (fuel : Nat) (args : List Str) {par : Params.Params} {r : Report α}
    (h : calcJRun D tos files fuel args = .ok (par, r)) : ∃ coef1 coef2 coefP S eP row1 row2, TablesOf tos files fuel par coef1 coef2 coefP S eP row1 row2 ∧
      MachineReport par.counterPoise coef1 coef2 coefP S eP row1 row2 r := by
  obtain ⟨q, h1, h2, h3, prP, pr1, pr2, lrP, lr1, lr2, g1, g2, g3, g4, g5, g6, S, coefP, coef1, coef2, eP, e1, e2, homo1, homo2, row1, row2,
    k1, k2, k3, k4, k5, k6, k7, k8, k9, k10, k11, k12, k13⟩ := C146_sound tos files fuel args h
  by_cases hp : HavePopulations lrP lr1 lr2
  · obtain ⟨x1, x2, xP, T, T', a1, a2, a3, a4, a5, a6, a7, a8, a9⟩ := k13 hp
    exact ⟨coef1, T'.coef2, T'.coefP, T'.S, eP, row1, row2, ⟨prP, pr1, pr2, lrP, lr1, lr2, g1, g2, g3, g4, g5, g6, S, coefP, coef2, e1, e2, homo1, homo2,
      k1, k2, k3, k4, k5, k6, k7, k8, k9, k10, k11, fun hn => absurd hp hn,
      fun _ => ⟨x1, x2, xP, T, T', a1, a2, a3, a4, a5, a6, a7, a8, rfl, rfl, rfl⟩⟩, a9⟩
  · exact ⟨coef1, coef2, coefP, S, eP, row1, row2, ⟨prP, pr1, pr2, lrP, lr1, lr2, g1, g2, g3, g4, g5, g6, S, coefP, coef2, e1, e2, homo1, homo2,
      k1, k2, k3, k4, k5, k6, k7, k8, k9, k10, k11, fun _ => ⟨rfl, rfl, rfl⟩, fun hn => absurd hn hp⟩, k12 hp⟩

end
end Verif
