import Verif.AlignLemmas
import Verif.Spec.Machine
/-
Property C99: calc_J in the machine's arithmetic.
-/
namespace Verif
open Strings Readers QC Mat Log Pun Job

section
variable {α : Type} [Zero α] [One α] [Add α] [Sub α] [Mul α] [Div α]

omit [One α] [Sub α] [Mul α] [Div α] in
theorem seqSum_machine (a : Int → α) (n : Int) : seqSum a n = Machine.sum a n.toNat := by
  have key : ∀ k : Nat, (irange 1 k).foldl (fun s j => s + a j) 0 = Machine.sum a k := by
    intro k
    induction k with
    | zero => rfl
    | succ k ih =>
      rw [Int.natCast_add, Int.natCast_one, irange_succ (by omega), List.foldl_append, ih]
      rfl
  unfold seqSum
  by_cases h : 0 ≤ n
  · have := key n.toNat
    rwa [Int.toNat_of_nonneg h] at this
  · rw [irange_empty (by omega), show n.toNat = 0 by omega]
    rfl

omit [One α] [Sub α] [Div α] in
theorem projSeq_machine (K N : Int) (z : Int → α) (S C : Int → Int → α) : projSeq K N z S C = Machine.proj K N z S C := by
  funext m
  unfold projSeq Machine.proj Machine.dot
  simp only [seqSum_machine]

theorem reportSeq_machine (M : Int) (gA gB E : Int → α) : reportSeq M gA gB E = Machine.report M gA gB E := by
  unfold reportSeq Machine.report Machine.weighted Machine.dot
  simp only [seqSum_machine]

/-- C99 (the computation): with coefficients, overlaps and energies of matching sizes, `calculate_transfer_integral` prints the numbers
computed by the machine's `+ - * /`, in exactly this order of operations. -/
theorem C99_report {coef1 coef2 coefP S oe : Mat α} {cp : Bool}
    {n1 n2 M N K : Int} {u v : Int → α} {C s : Int → Int → α} {E : Int → α}
    (h1 : Values coef1 1 n1 (fun _ j => u j)) (h2 : Values coef2 1 n2 (fun _ j => v j)) (hP : Values coefP M N C)
    (hS : Values S K N s) (hE : VectorOf oe M E) (hc : Conforming cp n1 n2 K) :
    transferReport coef1 coef2 coefP S oe cp =
      .ok (Machine.report M (Machine.proj K N (zetaA cp n1 u) s C) (Machine.proj K N (zetaB cp n1 v) s C) E) := by
  rw [report_core h1 h2 hP hS hE hc, reportSeq_machine, projSeq_machine, projSeq_machine]

/-- C99 (through `calcJ`): the numbers of the two orbitals the user named. -/
theorem C99_calcJ (T : TransferComplex α) {n1 n2 M N K : Int} {C s : Int → Int → α} {E : Int → α}
    {N1 N2 : Int} {c1 c2 : Int → Int → α} (h1 : Values T.coef1 N1 n1 c1) (h2 : Values T.coef2 N2 n2 c2)
    (hP : Values T.coefP M N C) (hS : Values T.S K N s) (hE : VectorOf T.oe M E) (hc : Conforming T.cp n1 n2 K)
    (orbtype : Str → Option Str) (orbnum : Str → Option Int) {k1 k2 : Str} {m1 m2 row1 row2 : Int}
    (t1 : orbtype "mon1".toList = some k1) (t2 : orbtype "mon2".toList = some k2)
    (o1 : orbnum "mon1".toList = some m1) (o2 : orbnum "mon2".toList = some m2)
    (s1 : NamesOrbital T.orbs1 k1 m1 row1) (s2 : NamesOrbital T.orbs2 k2 m2 row2)
    (r1 : 1 ≤ row1 ∧ row1 ≤ N1) (r2 : 1 ≤ row2 ∧ row2 ≤ N2) :
    T.calcJReport orbtype orbnum =
      .ok (Machine.report M (Machine.proj K N (zetaA T.cp n1 (c1 row1)) s C) (Machine.proj K N (zetaB T.cp n1 (c2 row2)) s C) E) := by
  obtain ⟨a, b, ha, hb, e⟩ := C32_report_rows T h1 h2 orbtype orbnum t1 t2 o1 o2 s1 s2 r1 r2
  rw [e]
  exact C99_report (u := c1 row1) (v := c2 row2) ha hb hP hS hE hc

end

section
variable {α β : Type} [Zero α] [One α] [Add α] [Sub α] [Mul α] [Div α] [Num α] [DecidableEq β] {D : Type} [Args.Dbl D]

/-- C99 (atoms not reordered): the arguments are accepted, the six files are well formed, the dimer's log file has an
overlap table, all log files have a coordinate table, the sizes fit together, the orbitals asked for exist, and not all three log files
have a table of populations. Then calc_J prints the numbers of these orbitals, computed in the machine's arithmetic, whatever that is. -/
theorem C99_plain (tos : α → β) (files : Str → Option Str) (args : List Str) {q : Args.Parser D} {par : Params.Params}
    (hq : Args.parse (fsOf files) Args.calcJ args = .ok q) (hpar : Args.prepareParameters q = .ok par)
    {oP o1 o2 : Output α} (hP : Stored files par.punP par.logP oP) (h1 : Stored files par.pun1 par.log1 o1)
    (h2 : Stored files par.pun2 par.log2 o2)
    {spinP spin1 spin2 : Log.Spin} (sP : par.spinP = spinP.name) (s1 : par.spin1 = spin1.name) (s2 : par.spin2 = spin2.name)
    {orbsP orbs1 orbs2 : List (Orbital α)} {n : Nat} {n1 n2 : Int} {esP es1 es2 : List EnergyLine}
    (bP : Orbitals oP spinP orbsP n esP) (b1 : Orbitals o1 spin1 orbs1 n1 es1) (b2 : Orbitals o2 spin2 orbs2 n2 es2)
    (hn : 1 ≤ n) (hn1 : 1 ≤ n1) (hn2 : 1 ≤ n2) (hM : orbsP.length = (energies esP).length)
    {S : Nat → Nat → α} (hS : lastOverlap oP.log = some (n, S))
    (xP : (lastCoords oP.log).isSome) (x1 : (lastCoords o1.log).isSome) (x2 : (lastCoords o2.log).isSome)
    (hc : Conforming par.counterPoise n1 n2 n)
    {row1 row2 : Int} (r1 : NamesOrbital ((energies es1).length, occupied es1) par.orbType1 par.orbNum1 row1)
    (r2 : NamesOrbital ((energies es2).length, occupied es2) par.orbType2 par.orbNum2 row2)
    (hr1 : 1 ≤ row1 ∧ row1 ≤ orbs1.length) (hr2 : 1 ≤ row2 ∧ row2 ≤ orbs2.length)
    (hpop : populations oP.log = [] ∨ populations o1.log = [] ∨ populations o2.log = []) :
    Ends (fun fuel => calcJRun D tos files fuel args)
      (.ok (par, Machine.jobReport par.counterPoise (coefOf orbs1 row1) (coefOf orbs2 row2) n1 orbsP.length n (coefOf orbsP) (overlapOf S) esP)) := by
  obtain ⟨prP, eprP, gP⟩ := stored_pun hP
  obtain ⟨pr1, epr1, g1⟩ := stored_pun h1
  obtain ⟨pr2, epr2, g2⟩ := stored_pun h2
  obtain ⟨lrP, elrP, lP, lS, lx, -, lp⟩ := stored_log hP
  obtain ⟨lr1, elr1, l1, -, lx1, -, lp1⟩ := stored_log h1
  obtain ⟨lr2, elr2, l2, -, lx2, -, lp2⟩ := stored_log h2
  obtain ⟨coefP, ecP, vP⟩ := gP _ _ _ _ bP (by omega)
  obtain ⟨coef1, ec1, v1⟩ := g1 _ _ _ _ b1 hn1
  obtain ⟨coef2, ec2, v2⟩ := g2 _ _ _ _ b2 hn2
  obtain ⟨eP, -⟩ := lP _ _ _ _ bP
  obtain ⟨e1, f1⟩ := l1 _ _ _ _ b1
  obtain ⟨e2, f2⟩ := l2 _ _ _ _ b2
  obtain ⟨Sm, eS, vS⟩ := lS _ _ hS
  obtain ⟨rowsP, xP⟩ := Option.isSome_iff_exists.1 xP
  obtain ⟨rows1, x1⟩ := Option.isSome_iff_exists.1 x1
  obtain ⟨rows2, x2⟩ := Option.isSome_iff_exists.1 x2
  obtain ⟨mP, exP, -⟩ := coords_ok rowsP
  obtain ⟨m1, ex1, -⟩ := coords_ok rows1
  obtain ⟨m2, ex2, -⟩ := coords_ok rows2
  rw [← lx _ xP] at exP
  rw [← lx1 _ x1] at ex1
  rw [← lx2 _ x2] at ex2
  have hMpos : 0 < orbsP.length := by have := vP.pos.1; omega
  have hne : (energies esP).map (Num.atof (α := α)) ≠ [] := by
    intro h; rw [List.map_eq_nil_iff] at h; rw [h, List.length_nil] at hM; omega
  obtain ⟨oe, eoe, hE⟩ := ofVec_vector _ hne
  refine run_ends tos files args hq hpar eprP epr1 epr2 elrP elr1 elr2 ?_
  rw [couplingReport_eq tos par eS (by rw [sP]; exact ecP) (by rw [s1]; exact ec1) (by rw [s2]; exact ec2) (by rw [sP]; exact eP)
    (by rw [s1]; exact e1) (by rw [s2]; exact e2) (by rw [s1]; exact f1) (by rw [s2]; exact f2) eoe ex1 ex2 exP ?_, if_neg ?_]
  · simp only [Res.ok_bind]
    refine C99_calcJ _ v1 v2 vP vS ?_ hc _ _ (k1 := par.orbType1) (k2 := par.orbType2) (m1 := par.orbNum1) (m2 := par.orbNum2) rfl rfl rfl rfl
      (by simpa using r1) (by simpa using r2) hr1 hr2
    rw [List.length_map] at hE
    rw [hM]; exact hE
  · rintro ⟨c1, c2, c3⟩
    rcases hpop with h | h | h
    · rw [lp h] at c3; exact c3 rfl
    · rw [lp1 h] at c1; exact c1 rfl
    · rw [lp2 h] at c2; exact c2 rfl
  · rw [vS.cols, vP.cols, v1.cols, v2.cols]
    refine ⟨rfl, ?_⟩
    unfold Conforming at hc
    split
    · rw [if_pos (by assumption)] at hc; exact hc
    · rw [if_neg (by assumption)] at hc; omega

/-- C99 (the dimer lists its atoms in any order, no counterpoise). All log files have coordinates and populations. In the
dimer's files the atoms of monomer 1 and then of monomer 2 (`basis`: how many basis functions each has) are listed in the order
`order`; were they not reordered, the coefficients and overlaps would be `C` and `s`. Then calc_J prints the numbers computed with
`C` and `s`: the order of the atoms does not matter. -/
theorem C99_aligned (tos : α → β) (files : Str → Option Str) (args : List Str) {q : Args.Parser D} {par : Params.Params}
    (hq : Args.parse (fsOf files) Args.calcJ args = .ok q) (hpar : Args.prepareParameters q = .ok par) (cp : par.counterPoise = false)
    {oP o1 o2 : Output α} (hP : Stored files par.punP par.logP oP) (h1 : Stored files par.pun1 par.log1 o1)
    (h2 : Stored files par.pun2 par.log2 o2)
    {spinP spin1 spin2 : Log.Spin} (sP : par.spinP = spinP.name) (s1 : par.spin1 = spin1.name) (s2 : par.spin2 = spin2.name)
    {orbsP orbs1 orbs2 : List (Orbital α)} {n : Nat} {n1 n2 : Int} {esP es1 es2 : List EnergyLine}
    (bP : Orbitals oP spinP orbsP n esP) (b1 : Orbitals o1 spin1 orbs1 n1 es1) (b2 : Orbitals o2 spin2 orbs2 n2 es2)
    (hn : 1 ≤ n) (hn1 : 1 ≤ n1) (hn2 : 1 ≤ n2) (hM : orbsP.length = (energies esP).length)
    {S : Nat → Nat → α} (hS : lastOverlap oP.log = some (n, S))
    {rowsP rows1 rows2 : List (α × α × α)} (xP : lastCoords oP.log = some rowsP) (x1 : lastCoords o1.log = some rows1)
    (x2 : lastCoords o2.log = some rows2)
    (hc : Conforming par.counterPoise n1 n2 n)
    {row1 row2 : Int} (r1 : NamesOrbital ((energies es1).length, occupied es1) par.orbType1 par.orbNum1 row1)
    (r2 : NamesOrbital ((energies es2).length, occupied es2) par.orbType2 par.orbNum2 row2)
    (hr1 : 1 ≤ row1 ∧ row1 ≤ orbs1.length) (hr2 : 1 ≤ row2 ∧ row2 ≤ orbs2.length)
    {basis order : List Int} (hb : ∀ b ∈ basis, 1 ≤ b) (hlen : basis.length = rows1.length + rows2.length) (hsum : n = basis.sum)
    (ne1 : rows1 ≠ []) (ne2 : rows2 ≠ []) (hre : Reordered tos order (rows1 ++ rows2) rowsP)
    (cntP : BasisCounts oP (reorderedBasis basis order)) (cnt1 : ∃ counts, BasisCounts o1 counts ∧ counts ≠ [])
    (cnt2 : ∃ counts, BasisCounts o2 counts ∧ counts ≠ [])
    {C s : Int → Int → α} (hC : ColumnsAs basis order C (coefOf orbsP)) (hs : BothAs basis order s (overlapOf S)) :
    Ends (fun fuel => calcJRun D tos files fuel args)
      (.ok (par, Machine.jobReport false (coefOf orbs1 row1) (coefOf orbs2 row2) n1 orbsP.length n C s esP)) := by
  obtain ⟨prP, eprP, gP⟩ := stored_pun hP
  obtain ⟨pr1, epr1, g1⟩ := stored_pun h1
  obtain ⟨pr2, epr2, g2⟩ := stored_pun h2
  obtain ⟨lrP, elrP, lP, lS, lx, lb, lp⟩ := stored_log hP
  obtain ⟨lr1, elr1, l1, -, lx1, lb1, lp1⟩ := stored_log h1
  obtain ⟨lr2, elr2, l2, -, lx2, lb2, lp2⟩ := stored_log h2
  obtain ⟨coefP, ecP, vP⟩ := gP _ _ _ _ bP (by omega)
  obtain ⟨coef1, ec1, v1⟩ := g1 _ _ _ _ b1 hn1
  obtain ⟨coef2, ec2, v2⟩ := g2 _ _ _ _ b2 hn2
  obtain ⟨eP, -⟩ := lP _ _ _ _ bP
  obtain ⟨e1, f1⟩ := l1 _ _ _ _ b1
  obtain ⟨e2, f2⟩ := l2 _ _ _ _ b2
  obtain ⟨Sm, eS, vS⟩ := lS _ _ hS
  obtain ⟨mP, exP, wP⟩ := coords_ok rowsP
  obtain ⟨m1, ex1, w1⟩ := coords_ok rows1
  obtain ⟨m2, ex2, w2⟩ := coords_ok rows2
  have kP : CoordsOf mP rowsP := ⟨wP.1, wP.2.1, wP.2.2.1, wP.2.2.2.1, wP.2.2.2.2⟩
  have k1 : CoordsOf m1 rows1 := ⟨w1.1, w1.2.1, w1.2.2.1, w1.2.2.2.1, w1.2.2.2.2⟩
  have k2 : CoordsOf m2 rows2 := ⟨w2.1, w2.2.1, w2.2.2.1, w2.2.2.2.1, w2.2.2.2.2⟩
  rw [← lx _ xP] at exP
  rw [← lx1 _ x1] at ex1
  rw [← lx2 _ x2] at ex2
  have hMpos : 0 < orbsP.length := by have := vP.pos.1; omega
  have hne : (energies esP).map (Num.atof (α := α)) ≠ [] := by
    intro h; rw [List.map_eq_nil_iff] at h; rw [h, List.length_nil] at hM; omega
  obtain ⟨oe, eoe, hE⟩ := ofVec_vector _ hne
  have qP := lb _ cntP
  obtain ⟨counts1, c1, c1ne⟩ := cnt1
  obtain ⟨counts2, c2, c2ne⟩ := cnt2
  have q1 := lb1 _ c1
  have q2 := lb2 _ c2
  obtain ⟨al, hal⟩ := exists_values C (r := orbsP.length) (c := n) (by omega) (by omega)
  obtain ⟨alS, halS⟩ := exists_values s (r := n) (c := n) (by omega) (by omega)
  have hun := unscramble_aligned tos basis order counts2 hb hre hlen ne1 ne2 hsum vP hal vS halS hC hs k1 k2 kP
    coef1 coef2 (((energies es1).map (Num.atof (α := α))).length, (occupied es1 : Int))
    (((energies es2).map (Num.atof (α := α))).length, (occupied es2 : Int)) oe false
  refine run_ends tos files args hq hpar eprP epr1 epr2 elrP elr1 elr2 ?_
  rw [couplingReport_eq tos par eS (by rw [sP]; exact ecP) (by rw [s1]; exact ec1) (by rw [s2]; exact ec2) (by rw [sP]; exact eP)
    (by rw [s1]; exact e1) (by rw [s2]; exact e2) (by rw [s1]; exact f1) (by rw [s2]; exact f2) eoe ex1 ex2 exP ?_, if_pos ?_]
  · rw [qP, q2, cp, hun]
    simp only [Res.ok_bind]
    rw [cp] at hc
    refine C99_calcJ (⟨coef1, coef2, al, _, _, alS, oe, true, false⟩ : TransferComplex α) v1 v2 hal halS ?_ hc _ _ (k1 := par.orbType1) (k2 := par.orbType2) (m1 := par.orbNum1) (m2 := par.orbNum2) rfl rfl rfl rfl
      (by simpa using r1) (by simpa using r2) hr1 hr2
    rw [List.length_map] at hE
    rw [hM]; exact hE
  · rw [qP, q1, q2]
    refine ⟨fun h => c1ne (List.eq_nil_of_length_eq_zero h), fun h => c2ne (List.eq_nil_of_length_eq_zero h), fun h => ?_⟩
    have := hre.perm.length_eq
    have l1 : 0 < rows1.length := List.length_pos_iff.2 ne1
    unfold reorderedBasis at h
    simp at h this
    rw [h] at this
    simp at this
    omega
  · rw [vS.cols, vP.cols, v1.cols, v2.cols]
    refine ⟨rfl, ?_⟩
    rw [cp] at hc ⊢
    unfold Conforming at hc
    simp at hc ⊢
    omega

/-- C99 (atoms in any order, counterpoise): all three calculations are of the same atoms (`basis`: how many basis functions
each has). The files of monomer 2 and of the dimer may list them in another order than those of monomer 1; were they not reordered, the
coefficients would be `c2` and `C` and the overlaps `s`. Then calc_J prints the numbers computed with `c2`, `C` and `s`. -/
theorem C99_aligned_cp (tos : α → β) (files : Str → Option Str) (args : List Str) {q : Args.Parser D} {par : Params.Params}
    (hq : Args.parse (fsOf files) Args.calcJ args = .ok q) (hpar : Args.prepareParameters q = .ok par) (cp : par.counterPoise = true)
    {oP o1 o2 : Output α} (hP : Stored files par.punP par.logP oP) (h1 : Stored files par.pun1 par.log1 o1)
    (h2 : Stored files par.pun2 par.log2 o2)
    {spinP spin1 spin2 : Log.Spin} (sP : par.spinP = spinP.name) (s1 : par.spin1 = spin1.name) (s2 : par.spin2 = spin2.name)
    {orbsP orbs1 orbs2 : List (Orbital α)} {n : Nat} {n1 n2 : Int} {esP es1 es2 : List EnergyLine}
    (bP : Orbitals oP spinP orbsP n esP) (b1 : Orbitals o1 spin1 orbs1 n1 es1) (b2 : Orbitals o2 spin2 orbs2 n2 es2)
    (hn : 1 ≤ n) (hn1 : 1 ≤ n1) (hn2 : 1 ≤ n2) (hM : orbsP.length = (energies esP).length)
    {S : Nat → Nat → α} (hS : lastOverlap oP.log = some (n, S))
    {rowsP rows1 rows2 : List (α × α × α)} (xP : lastCoords oP.log = some rowsP) (x1 : lastCoords o1.log = some rows1)
    (x2 : lastCoords o2.log = some rows2)
    (hc : Conforming par.counterPoise n1 n2 n)
    {row1 row2 : Int} (r1 : NamesOrbital ((energies es1).length, occupied es1) par.orbType1 par.orbNum1 row1)
    (r2 : NamesOrbital ((energies es2).length, occupied es2) par.orbType2 par.orbNum2 row2)
    (hr1 : 1 ≤ row1 ∧ row1 ≤ orbs1.length) (hr2 : 1 ≤ row2 ∧ row2 ≤ orbs2.length)
    {basis order2 order : List Int} (hb : ∀ b ∈ basis, 1 ≤ b) (hlen : basis.length = rows1.length) (hsum : n = basis.sum)
    (ne1 : rows1 ≠ []) (hre2 : Reordered tos order2 rows1 rows2) (hre : Reordered tos order rows1 rowsP)
    (cntP : BasisCounts oP (reorderedBasis basis order)) (cnt1 : ∃ counts, BasisCounts o1 counts ∧ counts ≠ [])
    (cnt2 : BasisCounts o2 (reorderedBasis basis order2))
    {c2 C s : Int → Int → α} (hC2 : ColumnsAs basis order2 c2 (coefOf orbs2)) (hC : ColumnsAs basis order C (coefOf orbsP)) (hs : BothAs basis order s (overlapOf S)) :
    Ends (fun fuel => calcJRun D tos files fuel args)
      (.ok (par, Machine.jobReport true (coefOf orbs1 row1) (c2 row2) n1 orbsP.length n C s esP)) := by
  obtain ⟨prP, eprP, gP⟩ := stored_pun hP
  obtain ⟨pr1, epr1, g1⟩ := stored_pun h1
  obtain ⟨pr2, epr2, g2⟩ := stored_pun h2
  obtain ⟨lrP, elrP, lP, lS, lx, lb, lp⟩ := stored_log hP
  obtain ⟨lr1, elr1, l1, -, lx1, lb1, lp1⟩ := stored_log h1
  obtain ⟨lr2, elr2, l2, -, lx2, lb2, lp2⟩ := stored_log h2
  obtain ⟨coefP, ecP, vP⟩ := gP _ _ _ _ bP (by omega)
  obtain ⟨coef1, ec1, v1⟩ := g1 _ _ _ _ b1 hn1
  obtain ⟨coef2, ec2, v2⟩ := g2 _ _ _ _ b2 hn2
  obtain ⟨eP, -⟩ := lP _ _ _ _ bP
  obtain ⟨e1, f1⟩ := l1 _ _ _ _ b1
  obtain ⟨e2, f2⟩ := l2 _ _ _ _ b2
  obtain ⟨Sm, eS, vS⟩ := lS _ _ hS
  obtain ⟨mP, exP, wP⟩ := coords_ok rowsP
  obtain ⟨m1, ex1, w1⟩ := coords_ok rows1
  obtain ⟨m2, ex2, w2⟩ := coords_ok rows2
  have kP : CoordsOf mP rowsP := ⟨wP.1, wP.2.1, wP.2.2.1, wP.2.2.2.1, wP.2.2.2.2⟩
  have k1 : CoordsOf m1 rows1 := ⟨w1.1, w1.2.1, w1.2.2.1, w1.2.2.2.1, w1.2.2.2.2⟩
  have k2 : CoordsOf m2 rows2 := ⟨w2.1, w2.2.1, w2.2.2.1, w2.2.2.2.1, w2.2.2.2.2⟩
  rw [← lx _ xP] at exP
  rw [← lx1 _ x1] at ex1
  rw [← lx2 _ x2] at ex2
  have hMpos : 0 < orbsP.length := by have := vP.pos.1; omega
  have hne : (energies esP).map (Num.atof (α := α)) ≠ [] := by
    intro h; rw [List.map_eq_nil_iff] at h; rw [h, List.length_nil] at hM; omega
  obtain ⟨oe, eoe, hE⟩ := ofVec_vector _ hne
  have qP := lb _ cntP
  obtain ⟨counts1, c1, c1ne⟩ := cnt1
  have q1 := lb1 _ c1
  have q2 := lb2 _ cnt2
  obtain ⟨al, hal⟩ := exists_values C (r := orbsP.length) (c := n) (by omega) (by omega)
  obtain ⟨alS, halS⟩ := exists_values s (r := n) (c := n) (by omega) (by omega)
  rw [cp] at hc
  obtain ⟨hc1, hc2⟩ : n1 = n ∧ n2 = n := by simpa [Conforming] using hc
  have v2' := v2
  rw [hc2] at v2'
  obtain ⟨al2, hal2⟩ := exists_values c2 (r := orbs2.length) (c := n) v2.pos.1 (by omega)
  have hun := unscramble_aligned_cp tos basis order2 order hb hre2 hre hlen ne1 hsum v2' hal2 vP hal vS halS hC2 hC hs k1 k2 kP
    coef1 (((energies es1).map (Num.atof (α := α))).length, (occupied es1 : Int))
    (((energies es2).map (Num.atof (α := α))).length, (occupied es2 : Int)) oe false
  refine run_ends tos files args hq hpar eprP epr1 epr2 elrP elr1 elr2 ?_
  rw [couplingReport_eq tos par eS (by rw [sP]; exact ecP) (by rw [s1]; exact ec1) (by rw [s2]; exact ec2) (by rw [sP]; exact eP)
    (by rw [s1]; exact e1) (by rw [s2]; exact e2) (by rw [s1]; exact f1) (by rw [s2]; exact f2) eoe ex1 ex2 exP ?_, if_pos ?_]
  · rw [qP, q2, cp, hun]
    simp only [Res.ok_bind]
    rw [← hc2] at hal2
    refine C99_calcJ (⟨coef1, al2, al, _, _, alS, oe, true, true⟩ : TransferComplex α) v1 hal2 hal halS ?_ hc _ _ (k1 := par.orbType1) (k2 := par.orbType2) (m1 := par.orbNum1) (m2 := par.orbNum2) rfl rfl rfl rfl
      (by simpa using r1) (by simpa using r2) hr1 hr2
    rw [List.length_map] at hE
    rw [hM]; exact hE
  · rw [qP, q1, q2]
    have l1 : 0 < rows1.length := List.length_pos_iff.2 ne1
    have a := hre.perm.length_eq
    have b := hre2.perm.length_eq
    simp at a b
    refine ⟨fun h => c1ne (List.eq_nil_of_length_eq_zero h), fun h => ?_, fun h => ?_⟩
    · unfold reorderedBasis at h
      simp at h
      rw [h] at b
      simp at b
      omega
    · unfold reorderedBasis at h
      simp at h
      rw [h] at a
      simp at a
      omega
  · rw [vS.cols, vP.cols, v1.cols, v2.cols]
    refine ⟨rfl, ?_⟩
    rw [cp]
    simp
    omega

end
end Verif
