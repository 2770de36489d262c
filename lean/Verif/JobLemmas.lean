import Verif.Props.Main
import Verif.Props.ReadersLog
import Verif.Props.ReadersPun
import Verif.Props.QCReorder
/-
From the six files to the number: lemmas for C79.
-/
namespace Verif
open Strings Readers QC Mat Log Pun Job

section
variable {α β : Type} [Mul α] [Num α] [Zero α]

/-- What the pun reader holds. -/
theorem stored_pun {files : Str → Option Str} {pn ln : Str} {o : Output α} (hs : Stored files pn ln o) :
    ∃ d, Ends (fun n => (readPun files n pn : Res (PunData α))) (.ok d) ∧
      ∀ spin orbs n es, Orbitals o spin orbs n es → 1 ≤ n → ∃ m, d.getCoefsMatrix spin.name = .ok m ∧ Values m orbs.length n (coefOf orbs) := by
  obtain ⟨d, hd, h, -⟩ := C76_coefs_partial files pn hs.punFit hs.punPlain o.pun o.ending hs.pun hs.punText
  refine ⟨d, hd, fun spin orbs n es ho hn => ?_⟩
  obtain ⟨m, e, hr, hc, hv⟩ := (h spin).1 orbs ho.table
  refine ⟨m, e, ?_⟩
  have hl : Loose m := by
    obtain ⟨-, N, hN⟩ := hd
    have g := (readPun_safe files N pn).2 _ (hN N (Nat.le_refl _))
    unfold PunData.getCoefsMatrix at e
    split at e
    · rename_i e'; cases e; exact g _ _ e'
    · cases e
  have hpos : 0 < orbs.length := by have := hl.2.1; omega
  have hcols : m.cols = n := by
    rw [hc orbs[0] (List.getElem_mem hpos)]
    exact ho.size _ (List.getElem_mem hpos)
  refine ⟨⟨hl.1, hl.2.1, by omega, by rw [hl.2.2]⟩, hr, hcols, hl.2.2, fun i j i1 i2 j1 j2 => ?_⟩
  have hi : (i - 1).toNat < orbs.length := by omega
  have hj : (j - 1).toNat < orbs[(i - 1).toNat].coefs.length := by
    have := ho.size _ (List.getElem_mem hi); omega
  have := hv _ hi _ hj
  rw [show (((i - 1).toNat : Int) + 1) = i by omega, show (((j - 1).toNat : Int) + 1) = j by omega] at this
  rw [this]
  unfold coefOf
  rw [List.getD_eq_getElem?_getD, List.getD_eq_getElem?_getD, List.getElem?_map, List.getElem?_eq_getElem hi, Option.map_some,
    Option.getD_some, List.getElem?_eq_getElem hj, Option.getD_some]

/-- What the log reader holds. -/
theorem stored_log {files : Str → Option Str} {pn ln : Str} {o : Output α} (hs : Stored files pn ln o) :
    ∃ d, Ends (fun n => (readLog files n ln : Res (LogData α))) (.ok d) ∧
      (∀ spin orbs n es, Orbitals o spin orbs n es → d.getOE spin.name = .ok ((energies es).map Num.atof) ∧
        d.getHOMOLevel spin.name = .ok (occupied es)) ∧
      (∀ n S, lastOverlap o.log = some (n, S) → ∃ m, d.getOverlapMatrix = .ok m ∧ Values m n n (overlapOf S)) ∧
      (∀ rows, lastCoords o.log = some rows → d.getCoords = [rows.map (·.1), rows.map (·.2.1), rows.map (·.2.2)]) ∧
      (∀ counts, BasisCounts o counts → d.getBasisFuncCount = counts) ∧
      (populations o.log = [] → d.getBasisFuncCount = []) := by
  obtain ⟨d, hd, h1⟩ := C71_energies files ln hs.logFit hs.logPlain o.log o.tail hs.log hs.logText
  obtain ⟨d2, hd2, h2⟩ := C73_overlap_partial files ln hs.logFit hs.logPlain o.log o.tail hs.log hs.logText
  obtain ⟨d3, hd3, h3, -⟩ := C74_coords files ln hs.logFit hs.logPlain o.log o.tail hs.log hs.logText
  cases hd.unique hd2
  cases hd.unique hd3
  refine ⟨d, hd, fun spin orbs n es ho => (h1 spin).1 es ho.energies, fun n S hS => ?_, h3, fun counts hc => ?_, fun hp => ?_⟩
  · obtain ⟨m, e, hr, hc, hv⟩ := h2 n S hS
    refine ⟨m, e, ?_⟩
    obtain ⟨k, hk⟩ : ∃ k, Sized k k m := by
      obtain ⟨-, N, hN⟩ := hd
      have g := (readLog_safe files N ln).2 _ (hN N (Nat.le_refl _))
      unfold LogData.getOverlapMatrix at e
      split at e
      · rename_i e'; cases e; exact g _ e'
      · cases e
    refine ⟨hk.1, hr, hc, hk.2.2.2, fun i j i1 i2 j1 j2 => ?_⟩
    have := hv i.toNat j.toNat (by omega) (by omega) (by omega) (by omega)
    rw [show ((i.toNat : Nat) : Int) = i by omega, show ((j.toNat : Nat) : Int) = j by omega] at this
    rw [this]
    unfold overlapOf
    by_cases hij : j ≤ i
    · rw [if_pos hij, if_pos (by omega)]
    · rw [if_neg hij, if_neg (by omega)]
  · obtain ⟨atoms, hm, rfl, hsame, hl⟩ := hc
    obtain ⟨d4, hd4, h4⟩ := C78_counts_partial files ln hs.logFit hs.logPlain o.log o.tail hs.log hs.logText atoms hm hsame hl
    cases hd.unique hd4
    exact h4
  · obtain ⟨d4, hd4, h4⟩ := C78_no_table files ln hs.logFit hs.logPlain o.log o.tail hs.log hs.logText hp
    cases hd.unique hd4
    exact h4

end

section
variable {α β : Type} [Mul α] [Num α] [Zero α] [One α] [Add α] [Sub α] [Div α] [DecidableEq β]

omit [Mul α] [Zero α] [One α] [Add α] [Sub α] [Div α] [Num α] in
/-- The coordinates as a matrix. -/
theorem coords_ok (rows : List (α × α × α)) : ∃ m, ofVecVec [rows.map (·.1), rows.map (·.2.1), rows.map (·.2.2)] = .ok m ∧
    Init m ∧ m.rows = 3 ∧ m.cols = rows.length ∧ m.shel = 1 ∧
    ∀ k (h : k < rows.length), m.getElem2 1 (k + 1) = .ok rows[k].1 ∧ m.getElem2 2 (k + 1) = .ok rows[k].2.1 ∧
      m.getElem2 3 (k + 1) = .ok rows[k].2.2 := by
  obtain ⟨m, e, hi, hr, hc, hs, hv⟩ := (C04_ofVecVec [rows.map (·.1), rows.map (·.2.1), rows.map (·.2.2)]).2.2 (rows.map (·.1)) rfl (by simp)
  refine ⟨m, e, hi, by simpa using hr, by simpa using hc, hs, fun k hk => ?_⟩
  have a := hv 0 (by simp) k (by simpa using hk)
  have b := hv 1 (by simp) k (by simpa using hk)
  have c := hv 2 (by simp) k (by simpa using hk)
  simp at a b c
  exact ⟨a, b, c⟩

/-- What `couplingReport` computes once the readers hold everything needed. -/
theorem couplingReport_eq (tos : α → β) (par : Params.Params) {prP pr1 pr2 : PunData α} {lrP lr1 lr2 : LogData α}
    {S coefP coef1 coef2 : Mat α} {eP e1 e2 : List α} {homo1 homo2 : Int} {oeP x1 x2 xP : Mat α}
    (hS : lrP.getOverlapMatrix = .ok S) (hcP : prP.getCoefsMatrix par.spinP = .ok coefP) (hc1 : pr1.getCoefsMatrix par.spin1 = .ok coef1)
    (hc2 : pr2.getCoefsMatrix par.spin2 = .ok coef2) (heP : lrP.getOE par.spinP = .ok eP) (he1 : lr1.getOE par.spin1 = .ok e1)
    (he2 : lr2.getOE par.spin2 = .ok e2) (hh1 : lr1.getHOMOLevel par.spin1 = .ok homo1) (hh2 : lr2.getHOMOLevel par.spin2 = .ok homo2)
    (hoe : ofVec eP = .ok oeP) (hx1 : ofVecVec lr1.getCoords = .ok x1) (hx2 : ofVecVec lr2.getCoords = .ok x2)
    (hxP : ofVecVec lrP.getCoords = .ok xP)
    (hcols : S.cols = coefP.cols ∧ if par.counterPoise then coef1.cols = coefP.cols ∧ coef2.cols = coefP.cols
      else coef1.cols + coef2.cols ≤ coefP.cols) :
    couplingReport tos par prP pr1 pr2 lrP lr1 lr2 =
      (if lr1.getBasisFuncCount.length ≠ 0 ∧ lr2.getBasisFuncCount.length ≠ 0 ∧ lrP.getBasisFuncCount.length ≠ 0 then
          TransferComplex.unscramble tos ⟨coef1, coef2, coefP, (e1.length, homo1), (e2.length, homo2), S, oeP, false, par.counterPoise⟩
            x1 x2 xP lrP.getBasisFuncCount lr2.getBasisFuncCount
        else .ok ⟨coef1, coef2, coefP, (e1.length, homo1), (e2.length, homo2), S, oeP, false, par.counterPoise⟩) >>= fun T =>
        T.calcJReport (Map.get (Map.set (Map.set [] (lit "mon1") par.orbType1) (lit "mon2") par.orbType2))
          (Map.get (Map.set (Map.set [] (lit "mon1") par.orbNum1) (lit "mon2") par.orbNum2)) := by
  obtain ⟨o1, eo1, r1⟩ := ofVec_rows e1
  obtain ⟨o2, eo2, r2⟩ := ofVec_rows e2
  unfold couplingReport
  simp only [hS, hcP, hc1, hc2, heP, he1, he2, hh1, hh2, hoe, hx1, hx2, hxP, eo1, eo2, Res.ok_bind,
    (C34_ctor coef1 coef2 coefP (e1.length, homo1) (e2.length, homo2) S oeP par.counterPoise).1 hcols, r1, r2]
  split <;> rfl

/-- Reading the files ends, and the rest does not depend on the fuel. -/
theorem run_ends {D : Type} [Args.Dbl D] (tos : α → β) (files : Str → Option Str) (args : List Str) {q : Args.Parser D} {par : Params.Params}
    (hq : Args.parse (fsOf files) Args.calcJ args = .ok q) (hpar : Args.prepareParameters q = .ok par)
    {prP pr1 pr2 : PunData α} {lrP lr1 lr2 : LogData α}
    (h1 : Ends (fun n => readPun files n par.punP) (.ok prP)) (h2 : Ends (fun n => readPun files n par.pun1) (.ok pr1))
    (h3 : Ends (fun n => readPun files n par.pun2) (.ok pr2)) (h4 : Ends (fun n => readLog files n par.logP) (.ok lrP))
    (h5 : Ends (fun n => readLog files n par.log1) (.ok lr1)) (h6 : Ends (fun n => readLog files n par.log2) (.ok lr2))
    {out : Report α} (h : couplingReport tos par prP pr1 pr2 lrP lr1 lr2 = .ok out) :
    Ends (fun fuel => calcJRun D tos files fuel args) (.ok (par, out)) := by
  obtain ⟨-, n1, e1⟩ := h1
  obtain ⟨-, n2, e2⟩ := h2
  obtain ⟨-, n3, e3⟩ := h3
  obtain ⟨-, n4, e4⟩ := h4
  obtain ⟨-, n5, e5⟩ := h5
  obtain ⟨-, n6, e6⟩ := h6
  refine ⟨by simp, n1 + n2 + n3 + n4 + n5 + n6, fun fuel hf => ?_⟩
  have f1 := e1 fuel (by omega)
  have f2 := e2 fuel (by omega)
  have f3 := e3 fuel (by omega)
  have f4 := e4 fuel (by omega)
  have f5 := e5 fuel (by omega)
  have f6 := e6 fuel (by omega)
  simp only [calcJRun]; unfold readFiles
  simp only at f1 f2 f3 f4 f5 f6
  simp only [Args.prepareParser_ok, Res.ok_bind, hq, hpar, f1, f2, f3, f4, f5, f6]
  rw [h]
  rfl

/-- What `coupling` computes once the readers hold everything needed. -/
theorem coupling_eq (tos : α → β) (par : Params.Params) {prP pr1 pr2 : PunData α} {lrP lr1 lr2 : LogData α}
    {S coefP coef1 coef2 : Mat α} {eP e1 e2 : List α} {homo1 homo2 : Int} {oeP x1 x2 xP : Mat α}
    (hS : lrP.getOverlapMatrix = .ok S) (hcP : prP.getCoefsMatrix par.spinP = .ok coefP) (hc1 : pr1.getCoefsMatrix par.spin1 = .ok coef1)
    (hc2 : pr2.getCoefsMatrix par.spin2 = .ok coef2) (heP : lrP.getOE par.spinP = .ok eP) (he1 : lr1.getOE par.spin1 = .ok e1)
    (he2 : lr2.getOE par.spin2 = .ok e2) (hh1 : lr1.getHOMOLevel par.spin1 = .ok homo1) (hh2 : lr2.getHOMOLevel par.spin2 = .ok homo2)
    (hoe : ofVec eP = .ok oeP) (hx1 : ofVecVec lr1.getCoords = .ok x1) (hx2 : ofVecVec lr2.getCoords = .ok x2)
    (hxP : ofVecVec lrP.getCoords = .ok xP)
    (hcols : S.cols = coefP.cols ∧ if par.counterPoise then coef1.cols = coefP.cols ∧ coef2.cols = coefP.cols
      else coef1.cols + coef2.cols ≤ coefP.cols) :
    Verif.coupling tos par prP pr1 pr2 lrP lr1 lr2 =
      (if lr1.getBasisFuncCount.length ≠ 0 ∧ lr2.getBasisFuncCount.length ≠ 0 ∧ lrP.getBasisFuncCount.length ≠ 0 then
          TransferComplex.unscramble tos ⟨coef1, coef2, coefP, (e1.length, homo1), (e2.length, homo2), S, oeP, false, par.counterPoise⟩
            x1 x2 xP lrP.getBasisFuncCount lr2.getBasisFuncCount
        else .ok ⟨coef1, coef2, coefP, (e1.length, homo1), (e2.length, homo2), S, oeP, false, par.counterPoise⟩) >>= fun T =>
        T.calcJ (Map.get (Map.set (Map.set [] (lit "mon1") par.orbType1) (lit "mon2") par.orbType2))
          (Map.get (Map.set (Map.set [] (lit "mon1") par.orbNum1) (lit "mon2") par.orbNum2)) := by
  obtain ⟨o1, eo1, r1⟩ := ofVec_rows e1
  obtain ⟨o2, eo2, r2⟩ := ofVec_rows e2
  rw [Verif.coupling_def]
  simp only [hS, hcP, hc1, hc2, heP, he1, he2, hh1, hh2, hoe, hx1, hx2, hxP, eo1, eo2, Res.ok_bind,
    (C34_ctor coef1 coef2 coefP (e1.length, homo1) (e2.length, homo2) S oeP par.counterPoise).1 hcols, r1, r2]
  split <;> rfl

/-- Reading the files ends, and the rest does not depend on the fuel. -/
theorem job_ends {D : Type} [Args.Dbl D] (tos : α → β) (files : Str → Option Str) (args : List Str) {q : Args.Parser D} {par : Params.Params}
    (hq : Args.parse (fsOf files) Args.calcJ args = .ok q) (hpar : Args.prepareParameters q = .ok par)
    {prP pr1 pr2 : PunData α} {lrP lr1 lr2 : LogData α}
    (h1 : Ends (fun n => readPun files n par.punP) (.ok prP)) (h2 : Ends (fun n => readPun files n par.pun1) (.ok pr1))
    (h3 : Ends (fun n => readPun files n par.pun2) (.ok pr2)) (h4 : Ends (fun n => readLog files n par.logP) (.ok lrP))
    (h5 : Ends (fun n => readLog files n par.log1) (.ok lr1)) (h6 : Ends (fun n => readLog files n par.log2) (.ok lr2))
    {out : Res α} (hne : out ≠ .diverge) (h : Verif.coupling tos par prP pr1 pr2 lrP lr1 lr2 = out) :
    Ends (fun fuel => calcJMain D tos files fuel args) out := by
  obtain ⟨-, n1, e1⟩ := h1
  obtain ⟨-, n2, e2⟩ := h2
  obtain ⟨-, n3, e3⟩ := h3
  obtain ⟨-, n4, e4⟩ := h4
  obtain ⟨-, n5, e5⟩ := h5
  obtain ⟨-, n6, e6⟩ := h6
  refine ⟨hne, n1 + n2 + n3 + n4 + n5 + n6, fun fuel hf => ?_⟩
  have f1 := e1 fuel (by omega)
  have f2 := e2 fuel (by omega)
  have f3 := e3 fuel (by omega)
  have f4 := e4 fuel (by omega)
  have f5 := e5 fuel (by omega)
  have f6 := e6 fuel (by omega)
  simp only [calcJMain_def]; unfold readFiles
  simp only at f1 f2 f3 f4 f5 f6
  simp only [Args.prepareParser_ok, Res.ok_bind, hq, hpar, f1, f2, f3, f4, f5, f6]
  exact h

end
end Verif
