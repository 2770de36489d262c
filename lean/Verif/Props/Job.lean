import Verif.Props.Machine
/-
Property C79, from the files to the number.
-/
namespace Verif
open Strings Readers QC Mat Log Pun Job

section
variable {α β : Type} [Field α] [Num α] [DecidableEq β] {D : Type} [Args.Dbl D]

omit [DecidableEq β] in
theorem jobReport_jeff (cp : Bool) (u v : Int → α) (n1 M n : Int) (C s : Int → Int → α) (es : List EnergyLine) :
    (Machine.jobReport cp u v n1 M n C s es).jeff = jobCoupling cp u v n1 M n C s es := by
  unfold Machine.jobReport jobCoupling
  rw [← projSeq_machine, ← projSeq_machine, ← reportSeq_machine, reportSeq_eq]
  rw [show projSeq n n (zetaA cp n1 u) s C = proj n n (zetaA cp n1 u) s C from funext fun _ => projSeq_eq ..,
    show projSeq n n (zetaB cp n1 v) s C = proj n n (zetaB cp n1 v) s C from funext fun _ => projSeq_eq ..]
  rfl

theorem main_of_run {tos : α → β} {files : Str → Option Str} {args : List Str} {par : Params.Params} {r : Report α} {J : α}
    (h : Ends (fun fuel => calcJRun D tos files fuel args) (.ok (par, r))) (hJ : r.jeff = J) :
    Ends (fun fuel => calcJMain D tos files fuel args) (.ok J) := by
  obtain ⟨-, N, h⟩ := h
  refine ⟨by simp, N, fun fuel hf => ?_⟩
  have := h fuel hf
  simp only [calcJMain] at this ⊢
  rw [this, ← hJ]
  rfl

/-- C79 (completeness, atoms not reordered): the arguments are accepted, the six files are well formed, the dimer's log file has an
overlap table, all log files have a coordinate table, the sizes fit together, the orbitals asked for exist, and not all three log files
have a table of populations. Then calc_J reports the coupling of these orbitals. -/
theorem C79_plain (tos : α → β) (files : Str → Option Str) (args : List Str) {q : Args.Parser D} {par : Params.Params}
    (hq : Args.parse (fsOf files) Args.calcJ args = .ok q) (hpar : Args.prepareParameters q = .ok par)
    {oP o1 o2 : Output α} (hP : Stored files par.punP par.logP oP) (h1 : Stored files par.pun1 par.log1 o1)
    (h2 : Stored files par.pun2 par.log2 o2)
    {spinP spin1 spin2 : Log.Spin} (sP : par.spinP = spinP.name) (s1 : par.spin1 = spin1.name) (s2 : par.spin2 = spin2.name)
    {orbsP orbs1 orbs2 : List (Orbital α)} {n : Nat} {n1 n2 : Int} {esP es1 es2 : List EnergyLine}
    (bP : Orbitals oP spinP orbsP n esP) (b1 : Orbitals o1 spin1 orbs1 n1 es1) (b2 : Orbitals o2 spin2 orbs2 n2 es2)
    (hn : 1 ≤ n) (hn1 : 1 ≤ n1) (hn2 : 1 ≤ n2) (hM : orbsP.length = (energies esP).length)
    {S : Nat → Nat → α} (hS : lastOverlap oP.log = some (n, S))
    (xP : (lastCoords oP.log).isSome) (x1 : (lastCoords o1.log).isSome) (x2 : (lastCoords o2.log).isSome)
    (hc : Conforming par.counterPoise n1 n2 n)
    {row1 row2 : Int} (r1 : NamesOrbital ((energies es1).length, occupied es1) par.orbType1 par.orbNum1 row1)
    (r2 : NamesOrbital ((energies es2).length, occupied es2) par.orbType2 par.orbNum2 row2)
    (hr1 : 1 ≤ row1 ∧ row1 ≤ orbs1.length) (hr2 : 1 ≤ row2 ∧ row2 ≤ orbs2.length)
    (hpop : populations oP.log = [] ∨ populations o1.log = [] ∨ populations o2.log = []) :
    Ends (fun fuel => calcJMain D tos files fuel args)
      (.ok (jobCoupling par.counterPoise (coefOf orbs1 row1) (coefOf orbs2 row2) n1 orbsP.length n (coefOf orbsP) (overlapOf S) esP)) :=
  main_of_run (C99_plain tos files args hq hpar hP h1 h2 sP s1 s2 bP b1 b2 hn hn1 hn2 hM hS xP x1 x2 hc r1 r2 hr1 hr2 hpop) (jobReport_jeff ..)

/-- C79 (completeness, the dimer lists its atoms in any order, no counterpoise). All log files have coordinates and populations. In the
dimer's files the atoms of monomer 1 and then of monomer 2 (`basis`: how many basis functions each has) are listed in the order
`order`; were they not reordered, the coefficients and overlaps would be `C` and `s`. Then calc_J reports the coupling computed with
`C` and `s`: the order of the atoms does not matter. -/
theorem C79_aligned (tos : α → β) (files : Str → Option Str) (args : List Str) {q : Args.Parser D} {par : Params.Params}
    (hq : Args.parse (fsOf files) Args.calcJ args = .ok q) (hpar : Args.prepareParameters q = .ok par) (cp : par.counterPoise = false)
    {oP o1 o2 : Output α} (hP : Stored files par.punP par.logP oP) (h1 : Stored files par.pun1 par.log1 o1)
    (h2 : Stored files par.pun2 par.log2 o2)
    {spinP spin1 spin2 : Log.Spin} (sP : par.spinP = spinP.name) (s1 : par.spin1 = spin1.name) (s2 : par.spin2 = spin2.name)
    {orbsP orbs1 orbs2 : List (Orbital α)} {n : Nat} {n1 n2 : Int} {esP es1 es2 : List EnergyLine}
    (bP : Orbitals oP spinP orbsP n esP) (b1 : Orbitals o1 spin1 orbs1 n1 es1) (b2 : Orbitals o2 spin2 orbs2 n2 es2)
    (hn : 1 ≤ n) (hn1 : 1 ≤ n1) (hn2 : 1 ≤ n2) (hM : orbsP.length = (energies esP).length)
    {S : Nat → Nat → α} (hS : lastOverlap oP.log = some (n, S))
    {rowsP rows1 rows2 : List (α × α × α)} (xP : lastCoords oP.log = some rowsP) (x1 : lastCoords o1.log = some rows1)
    (x2 : lastCoords o2.log = some rows2)
    (hc : Conforming par.counterPoise n1 n2 n)
    {row1 row2 : Int} (r1 : NamesOrbital ((energies es1).length, occupied es1) par.orbType1 par.orbNum1 row1)
    (r2 : NamesOrbital ((energies es2).length, occupied es2) par.orbType2 par.orbNum2 row2)
    (hr1 : 1 ≤ row1 ∧ row1 ≤ orbs1.length) (hr2 : 1 ≤ row2 ∧ row2 ≤ orbs2.length)
    {basis order : List Int} (hb : ∀ b ∈ basis, 1 ≤ b) (hlen : basis.length = rows1.length + rows2.length) (hsum : n = basis.sum)
    (ne1 : rows1 ≠ []) (ne2 : rows2 ≠ []) (hre : Reordered tos order (rows1 ++ rows2) rowsP)
    (cntP : BasisCounts oP (reorderedBasis basis order)) (cnt1 : ∃ counts, BasisCounts o1 counts ∧ counts ≠ [])
    (cnt2 : ∃ counts, BasisCounts o2 counts ∧ counts ≠ [])
    {C s : Int → Int → α} (hC : ColumnsAs basis order C (coefOf orbsP)) (hs : BothAs basis order s (overlapOf S)) :
    Ends (fun fuel => calcJMain D tos files fuel args)
      (.ok (jobCoupling false (coefOf orbs1 row1) (coefOf orbs2 row2) n1 orbsP.length n C s esP)) :=
  main_of_run (C99_aligned tos files args hq hpar cp hP h1 h2 sP s1 s2 bP b1 b2 hn hn1 hn2 hM hS xP x1 x2 hc r1 r2 hr1 hr2 hb hlen hsum ne1 ne2 hre cntP cnt1 cnt2 hC hs) (jobReport_jeff ..)

/-- C79 (completeness, atoms in any order, counterpoise): all three calculations are of the same atoms (`basis`: how many basis functions
each has). The files of monomer 2 and of the dimer may list them in another order than those of monomer 1; were they not reordered, the
coefficients would be `c2` and `C` and the overlaps `s`. Then calc_J reports the coupling computed with `c2`, `C` and `s`. -/
theorem C79_aligned_cp (tos : α → β) (files : Str → Option Str) (args : List Str) {q : Args.Parser D} {par : Params.Params}
    (hq : Args.parse (fsOf files) Args.calcJ args = .ok q) (hpar : Args.prepareParameters q = .ok par) (cp : par.counterPoise = true)
    {oP o1 o2 : Output α} (hP : Stored files par.punP par.logP oP) (h1 : Stored files par.pun1 par.log1 o1)
    (h2 : Stored files par.pun2 par.log2 o2)
    {spinP spin1 spin2 : Log.Spin} (sP : par.spinP = spinP.name) (s1 : par.spin1 = spin1.name) (s2 : par.spin2 = spin2.name)
    {orbsP orbs1 orbs2 : List (Orbital α)} {n : Nat} {n1 n2 : Int} {esP es1 es2 : List EnergyLine}
    (bP : Orbitals oP spinP orbsP n esP) (b1 : Orbitals o1 spin1 orbs1 n1 es1) (b2 : Orbitals o2 spin2 orbs2 n2 es2)
    (hn : 1 ≤ n) (hn1 : 1 ≤ n1) (hn2 : 1 ≤ n2) (hM : orbsP.length = (energies esP).length)
    {S : Nat → Nat → α} (hS : lastOverlap oP.log = some (n, S))
    {rowsP rows1 rows2 : List (α × α × α)} (xP : lastCoords oP.log = some rowsP) (x1 : lastCoords o1.log = some rows1)
    (x2 : lastCoords o2.log = some rows2)
    (hc : Conforming par.counterPoise n1 n2 n)
    {row1 row2 : Int} (r1 : NamesOrbital ((energies es1).length, occupied es1) par.orbType1 par.orbNum1 row1)
    (r2 : NamesOrbital ((energies es2).length, occupied es2) par.orbType2 par.orbNum2 row2)
    (hr1 : 1 ≤ row1 ∧ row1 ≤ orbs1.length) (hr2 : 1 ≤ row2 ∧ row2 ≤ orbs2.length)
    {basis order2 order : List Int} (hb : ∀ b ∈ basis, 1 ≤ b) (hlen : basis.length = rows1.length) (hsum : n = basis.sum)
    (ne1 : rows1 ≠ []) (hre2 : Reordered tos order2 rows1 rows2) (hre : Reordered tos order rows1 rowsP)
    (cntP : BasisCounts oP (reorderedBasis basis order)) (cnt1 : ∃ counts, BasisCounts o1 counts ∧ counts ≠ [])
    (cnt2 : BasisCounts o2 (reorderedBasis basis order2))
    {c2 C s : Int → Int → α} (hC2 : ColumnsAs basis order2 c2 (coefOf orbs2)) (hC : ColumnsAs basis order C (coefOf orbsP)) (hs : BothAs basis order s (overlapOf S)) :
    Ends (fun fuel => calcJMain D tos files fuel args)
      (.ok (jobCoupling true (coefOf orbs1 row1) (c2 row2) n1 orbsP.length n C s esP)) :=
  main_of_run (C99_aligned_cp tos files args hq hpar cp hP h1 h2 sP s1 s2 bP b1 b2 hn hn1 hn2 hM hS xP x1 x2 hc r1 r2 hr1 hr2 hb hlen hsum ne1 hre2 hre cntP cnt1 cnt2 hC2 hC hs) (jobReport_jeff ..)

end
end Verif
