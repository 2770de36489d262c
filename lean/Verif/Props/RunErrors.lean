import Verif.Spec.RunErrors
import Verif.Props.TotalError
import Verif.Props.MachineRun
/-
C146: what the numbers of any run of calc_J are worth.
-/
namespace Verif
open Strings Readers QC Mat Machine

namespace QC
variable {α : Type} [Zero α] [One α] [Add α] [Sub α] [Mul α] [Div α]

omit [Zero α] [One α] [Add α] [Sub α] [Mul α] [Div α] in
/-- A table has only one reading. -/
theorem _root_.Verif.QC.values_unique {m : Mat α} {r c r' c' : Int} {f g : Int → Int → α} (h : Values m r c f) (h' : Values m r' c' g) {i j : Int}
    (hi : 1 ≤ i) (hi' : i ≤ r) (hj : 1 ≤ j) (hj' : j ≤ c) : f i j = g i j := by
  have e1 := h.val i j hi hi' hj hj'
  rw [h'.val i j hi (by rw [← h'.rows, h.rows]; exact hi') hj (by rw [← h'.cols, h.cols]; exact hj')] at e1
  exact (Res.ok.inj e1).symm

/-- The report in terms of any reading of the tables. -/
theorem MachineReport.values {cp : Bool} {coef1 coef2 coefP S : Mat α} {E : List α} {row1 row2 : Int} {r : Report α}
    (h : MachineReport cp coef1 coef2 coefP S E row1 row2 r) {N1 n1 N2 n2 M N K : Int} {c1 c2 C s : Int → Int → α}
    (h1 : Values coef1 N1 n1 c1) (h2 : Values coef2 N2 n2 c2) (hP : Values coefP M N C) (hS : Values S K N s) :
    Conforming cp n1 n2 K ∧ E.length = M ∧ (1 ≤ row1 ∧ row1 ≤ N1) ∧ (1 ≤ row2 ∧ row2 ≤ N2) ∧
    r = Machine.report M (Machine.proj K N (zetaA cp n1 (c1 row1)) s C) (Machine.proj K N (zetaB cp n1 (c2 row2)) s C) (fun m => E.getD (m - 1).toNat 0) := by
  obtain ⟨N1', n1', N2', n2', M', N', K', c1', c2', C', s', h1', h2', hP', hS', hl, hc, l1, l2, l3, l4, rfl⟩ := h
  obtain rfl : N1 = N1' := h1.rows.symm.trans h1'.rows
  obtain rfl : n1 = n1' := h1.cols.symm.trans h1'.cols
  obtain rfl : N2 = N2' := h2.rows.symm.trans h2'.rows
  obtain rfl : n2 = n2' := h2.cols.symm.trans h2'.cols
  obtain rfl : M = M' := hP.rows.symm.trans hP'.rows
  obtain rfl : N = N' := hP.cols.symm.trans hP'.cols
  obtain rfl : K = K' := hS.rows.symm.trans hS'.rows
  refine ⟨hc, hl, ⟨l1, l2⟩, ⟨l3, l4⟩, ?_⟩
  have p1 : 1 ≤ n1 := by rw [← h1.cols]; exact h1.wf.cols1
  have p2 : 1 ≤ n2 := by rw [← h2.cols]; exact h2.wf.cols1
  have pM : 1 ≤ M := by rw [← hP.rows]; exact hP.wf.rows1
  obtain ⟨a, ha⟩ := exists_values (fun _ j => c1 row1 j) (r := 1) (c := n1) le_rfl p1
  obtain ⟨b, hb⟩ := exists_values (fun _ j => c2 row2 j) (r := 1) (c := n2) le_rfl p2
  have ha' : Values a 1 n1 (fun _ j => c1' row1 j) := ⟨ha.wf, ha.rows, ha.cols, ha.shel, fun i j x1 x2 x3 x4 => by
    rw [ha.val i j x1 x2 x3 x4, values_unique h1 h1' l1 l2 x3 x4]⟩
  have hb' : Values b 1 n2 (fun _ j => c2' row2 j) := ⟨hb.wf, hb.rows, hb.cols, hb.shel, fun i j x1 x2 x3 x4 => by
    rw [hb.val i j x1 x2 x3 x4, values_unique h2 h2' l3 l4 x3 x4]⟩
  obtain ⟨oe, -, hE⟩ := ofVec_vector E (by rintro rfl; simp at hl; omega)
  rw [hl] at hE
  have e := C99_report ha hb hP hS hE hc
  rw [C99_report ha' hb' hP' hS' hE hc] at e
  exact Res.ok.inj e

end QC

section
variable {α K : Type} [Zero α] [One α] [Add α] [Sub α] [Mul α] [Div α] [Field K] [LinearOrder K] [IsStrictOrderedRing K] {e : K} {val : α → K}

theorem QC.MachineReport.accurate (R : Rounds e val) {cp : Bool} {coef1 coef2 coefP S : Mat α} {E : List α} {row1 row2 : Int} {r : Report α}
    (h : MachineReport cp coef1 coef2 coefP S E row1 row2 r) : AccurateMeaning e val cp coef1 coef2 coefP S E row1 row2 r := by
  intro N1 n1 N2 n2 M N P c1 c2 C s h1 h2 hP hS
  obtain ⟨hc, hl, -, -, rfl⟩ := MachineReport.values h h1 h2 hP hS
  refine ⟨hc, hl, ?_⟩
  rw [← val_zetaA R.zero, ← val_zetaB R.zero]
  exact report_accurate R ..

theorem QC.MachineReport.true (R : Rounds e val) {cp : Bool} {coef1 coef2 coefP S : Mat α} {E : List α} {row1 row2 : Int} {r : Report α}
    (h : MachineReport cp coef1 coef2 coefP S E row1 row2 r) : TrueMeaning e val cp coef1 coef2 coefP S E row1 row2 r := by
  intro N1 n1 N2 n2 M N P c1 c2 C s h1 h2 hP hS a b E ε δ B L ha hb hε na nb hB hd tA tB
  exact trueUpTo_of R.nonneg (MachineReport.accurate R h h1 h2 hP hS).2.2 ha hb hε na nb hB hd tA tB

variable {β : Type} [Num α] [DecidableEq β] {D : Type} [Args.Dbl D]

/-- C146 (accuracy): if every operation of the machine has a relative error of at most `e`, the numbers of every run of calc_J that ends normally are, up to the
accumulated error, those of exact arithmetic for the tables it read - whatever these are. -/
theorem C146_accurate (R : Rounds e val) (tos : α → β) (files : Str → Option Str) (fuel : Nat) (args : List Str) {par : Params.Params} {r : Report α}
    (h : calcJRun D tos files fuel args = .ok (par, r)) : ∃ coef1 coef2 coefP S eP row1 row2, TablesOf tos files fuel par coef1 coef2 coefP S eP row1 row2 ∧
      AccurateMeaning e val par.counterPoise coef1 coef2 coefP S eP row1 row2 r := by
  obtain ⟨coef1, coef2, coefP, S, eP, row1, row2, t, k⟩ := C146_run tos files fuel args h
  exact ⟨coef1, coef2, coefP, S, eP, row1, row2, t, k.accurate R⟩

/-- C146 (the true numbers): and they are those of any normalised orbitals and energies the tables are close to, up to the errors of tables and arithmetic. -/
theorem C146_true (R : Rounds e val) (tos : α → β) (files : Str → Option Str) (fuel : Nat) (args : List Str) {par : Params.Params} {r : Report α}
    (h : calcJRun D tos files fuel args = .ok (par, r)) : ∃ coef1 coef2 coefP S eP row1 row2, TablesOf tos files fuel par coef1 coef2 coefP S eP row1 row2 ∧
      TrueMeaning e val par.counterPoise coef1 coef2 coefP S eP row1 row2 r := by
  obtain ⟨coef1, coef2, coefP, S, eP, row1, row2, t, k⟩ := C146_run tos files fuel args h
  exact ⟨coef1, coef2, coefP, S, eP, row1, row2, t, k.true R⟩

end
end Verif
