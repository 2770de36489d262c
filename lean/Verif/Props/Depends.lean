import Verif.Spec.Depends
import Verif.Props.RunErrors
/-
C148: what the printed numbers depend on.
-/
namespace Verif
open Strings Readers QC Mat Machine

section
variable {α : Type} [Zero α] [One α] [Add α] [Sub α] [Mul α] [Div α]

theorem QC.MachineReport.depends {cp cp' : Bool} {coef1 coef2 coefP S coef1' coef2' coefP' S' : Mat α} {E E' : List α} {row1 row2 row1' row2' : Int} {r r' : Report α}
    (h : MachineReport cp coef1 coef2 coefP S E row1 row2 r) (h' : MachineReport cp' coef1' coef2' coefP' S' E' row1' row2' r')
    (a : Agree cp cp' coef1 coef1' coef2 coef2' coefP coefP' S S' E E' row1 row1' row2 row2') : r' = r := by
  obtain ⟨N1, n1, N2, n2, M, N, K, c1, c2, C, s, h1, h2, hP, hS, -, -, l1, l2, l3, l4, rfl⟩ := h
  obtain ⟨rfl, ⟨e1, e2, e3, e4, e5, e6⟩, o1, o2, d, ov, rfl⟩ := a
  have h'' := h'
  obtain ⟨N1', n1', N2', n2', M', N', K', c1', c2', C', s', h1', h2', hP', hS', -, -, l1', l2', l3', l4', -⟩ := h'
  have w1 : Values coef1' N1' n1 (fun i j => if i = row1' then c1 row1 j else c1' i j) := by
    refine ⟨h1'.wf, h1'.rows, e1.trans h1.cols, h1'.shel, fun i j a b c d => ?_⟩
    by_cases hi : i = row1'
    · subst hi
      rw [o1 j c (by rw [h1.cols]; exact d), h1.val _ _ l1 l2 c d, if_pos rfl]
    · rw [if_neg hi, h1'.val i j a b c (by rw [← h1'.cols, e1, h1.cols]; exact d)]
  have w2 : Values coef2' N2' n2 (fun i j => if i = row2' then c2 row2 j else c2' i j) := by
    refine ⟨h2'.wf, h2'.rows, e2.trans h2.cols, h2'.shel, fun i j a b c d => ?_⟩
    by_cases hi : i = row2'
    · subst hi
      rw [o2 j c (by rw [h2.cols]; exact d), h2.val _ _ l3 l4 c d, if_pos rfl]
    · rw [if_neg hi, h2'.val i j a b c (by rw [← h2'.cols, e2, h2.cols]; exact d)]
  have wP : Values coefP' M N C := ⟨hP'.wf, e3.trans hP.rows, e4.trans hP.cols, hP'.shel, fun i j a b c e => by
    rw [d i j a (by rw [hP.rows]; exact b) c (by rw [hP.cols]; exact e), hP.val i j a b c e]⟩
  have wS : Values S' K N s := ⟨hS'.wf, e5.trans hS.rows, e6.trans hS.cols, hS'.shel, fun i j a b c e => by
    rw [ov i j a (by rw [hS.rows]; exact b) c (by rw [hS.cols]; exact e), hS.val i j a b c e]⟩
  obtain ⟨-, -, -, -, e⟩ := MachineReport.values h'' w1 w2 wP wS
  rw [e]
  simp only [if_true]

variable {β : Type} [Num α] [DecidableEq β] {D : Type} [Args.Dbl D]

/-- C148: two runs of calc_J whose tables agree in the orbitals asked for, the dimer's orbitals and the overlaps print the same numbers, bit for bit: nothing else
in the files matters (neither the other orbitals of the monomers nor, apart from their number and the HOMO level, the monomers' energies), nor how these tables
came about. -/
theorem C148_run (tos tos' : α → β) (files files' : Str → Option Str) (fuel fuel' : Nat) (args args' : List Str) {par par' : Params.Params} {r r' : Report α}
    (h : calcJRun D tos files fuel args = .ok (par, r)) (h' : calcJRun D tos' files' fuel' args' = .ok (par', r')) :
    ∃ coef1 coef2 coefP S eP row1 row2 coef1' coef2' coefP' S' eP' row1' row2',
      TablesOf tos files fuel par coef1 coef2 coefP S eP row1 row2 ∧ TablesOf tos' files' fuel' par' coef1' coef2' coefP' S' eP' row1' row2' ∧
      (Agree par.counterPoise par'.counterPoise coef1 coef1' coef2 coef2' coefP coefP' S S' eP eP' row1 row1' row2 row2' → r' = r) := by
  obtain ⟨coef1, coef2, coefP, S, eP, row1, row2, t, k⟩ := C146_run tos files fuel args h
  obtain ⟨coef1', coef2', coefP', S', eP', row1', row2', t', k'⟩ := C146_run tos' files' fuel' args' h'
  exact ⟨coef1, coef2, coefP, S, eP, row1, row2, coef1', coef2', coefP', S', eP', row1', row2', t, t', fun a => k.depends k' a⟩

/-- C148 (the calculation): the same for `calcJ`. -/
theorem C148_calcJ (T T' : TransferComplex α) {n1 n2 M N K : Int} {C s : Int → Int → α} {E : Int → α}
    {N1 N2 N1' N2' : Int} {c1 c2 c1' c2' : Int → Int → α} (h1 : Values T.coef1 N1 n1 c1) (h2 : Values T.coef2 N2 n2 c2)
    (hP : Values T.coefP M N C) (hS : Values T.S K N s) (hE : VectorOf T.oe M E) (hc : Conforming T.cp n1 n2 K)
    (h1' : Values T'.coef1 N1' n1 c1') (h2' : Values T'.coef2 N2' n2 c2') (hP' : Values T'.coefP M N C) (hS' : Values T'.S K N s)
    (hE' : VectorOf T'.oe M E) (hm : T'.cp = T.cp)
    (orbtype orbtype' : Str → Option Str) (orbnum orbnum' : Str → Option Int) {k1 k2 k1' k2' : Str} {m1 m2 row1 row2 m1' m2' row1' row2' : Int}
    (t1 : orbtype "mon1".toList = some k1) (t2 : orbtype "mon2".toList = some k2)
    (o1 : orbnum "mon1".toList = some m1) (o2 : orbnum "mon2".toList = some m2)
    (s1 : NamesOrbital T.orbs1 k1 m1 row1) (s2 : NamesOrbital T.orbs2 k2 m2 row2)
    (r1 : 1 ≤ row1 ∧ row1 ≤ N1) (r2 : 1 ≤ row2 ∧ row2 ≤ N2)
    (t1' : orbtype' "mon1".toList = some k1') (t2' : orbtype' "mon2".toList = some k2')
    (o1' : orbnum' "mon1".toList = some m1') (o2' : orbnum' "mon2".toList = some m2')
    (s1' : NamesOrbital T'.orbs1 k1' m1' row1') (s2' : NamesOrbital T'.orbs2 k2' m2' row2')
    (r1' : 1 ≤ row1' ∧ row1' ≤ N1') (r2' : 1 ≤ row2' ∧ row2' ≤ N2')
    (e1 : ∀ j, 1 ≤ j → j ≤ n1 → c1' row1' j = c1 row1 j) (e2 : ∀ j, 1 ≤ j → j ≤ n2 → c2' row2' j = c2 row2 j) :
    T'.calcJReport orbtype' orbnum' = T.calcJReport orbtype orbnum := by
  have w1 : Values T'.coef1 N1' n1 (fun i j => if i = row1' then c1 row1 j else c1' i j) :=
    ⟨h1'.wf, h1'.rows, h1'.cols, h1'.shel, fun i j a b c d => by
      by_cases hi : i = row1'
      · subst hi; rw [if_pos rfl, ← e1 j c d]; exact h1'.val _ _ a b c d
      · rw [if_neg hi]; exact h1'.val i j a b c d⟩
  have w2 : Values T'.coef2 N2' n2 (fun i j => if i = row2' then c2 row2 j else c2' i j) :=
    ⟨h2'.wf, h2'.rows, h2'.cols, h2'.shel, fun i j a b c d => by
      by_cases hi : i = row2'
      · subst hi; rw [if_pos rfl, ← e2 j c d]; exact h2'.val _ _ a b c d
      · rw [if_neg hi]; exact h2'.val i j a b c d⟩
  rw [C99_calcJ T h1 h2 hP hS hE hc orbtype orbnum t1 t2 o1 o2 s1 s2 r1 r2,
    C99_calcJ T' w1 w2 hP' hS' hE' (by rw [hm]; exact hc) orbtype' orbnum' t1' t2' o1' o2' s1' s2' r1' r2', hm]
  simp only [if_true]

end
end Verif
