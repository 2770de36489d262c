import Verif.QCTransfer
import Verif.Props.MatrixC
import Mathlib.Tactic.FieldSimp
import Mathlib.Tactic.LinearCombination
/-
Properties C32-C40: the transfer integral.
-/
namespace Verif.QC
open Verif.Mat Finset
variable {α : Type}

/-! ### orbital selection -/

theorem selectRow_ok [Zero α] {coef : Mat α} {N nb : Int} {c : Int → Int → α} (h : Values coef N nb c)
    {orbs : Int × Int} {kind : Str} {n row : Int} (hn : NamesOrbital orbs kind n row) (hr : 1 ≤ row ∧ row ≤ N) :
    ∃ r, selectRow coef orbs kind n = .ok r ∧ IsMat r 1 nb 1 (fun _ j _ => c row j) := by
  obtain ⟨p1, p2⟩ := h.pos
  obtain ⟨m, e, hm⟩ := getRow_isMat h.isMat p2 (by omega) hr.1 hr.2
  refine ⟨m, ?_, hm⟩
  unfold selectRow
  rcases hn with ⟨rfl, a1, a2, rfl⟩ | ⟨rfl, a1, a2, rfl⟩
  · rw [if_pos rfl, if_neg (by omega), if_neg (by omega)]; exact e
  · rw [if_neg (by decide), if_pos rfl, if_neg (by omega), if_neg (by omega)]
    rw [← e]; congr 1; omega

theorem selectRow_throw [Zero α] (coef : Mat α) {orbs : Int × Int} {kind : Str} {n : Int}
    (hn : ¬ ∃ row, NamesOrbital orbs kind n row) : selectRow coef orbs kind n = .throw .invalidArgument := by
  unfold selectRow
  by_cases h1 : kind = "HOMO".toList
  · rw [if_pos h1]
    by_cases h2 : n > 0
    · rw [if_pos h2]
    · rw [if_neg h2]
      by_cases h3 : n ≤ -1 * orbs.2
      · rw [if_pos h3]
      · exact absurd ⟨orbs.2 + n, Or.inl ⟨h1, by omega, by omega, rfl⟩⟩ hn
  · rw [if_neg h1]
    by_cases h4 : kind = "LUMO".toList
    · rw [if_pos h4]
      by_cases h2 : n < 0
      · rw [if_pos h2]
      · rw [if_neg h2]
        by_cases h3 : n ≥ orbs.1 - orbs.2
        · rw [if_pos h3]
        · exact absurd ⟨orbs.2 + 1 + n, Or.inr ⟨h4, by omega, by omega, rfl⟩⟩ hn
    · rw [if_neg h4]

/-- C32 (printed numbers): an accepted request makes `calcJ` print the numbers for exactly the coefficient rows named by the
user - HOMO + n, or HOMO + 1 + n for the LUMO - independently for the two monomers. -/
theorem C32_report_rows [Zero α] [One α] [Add α] [Sub α] [Mul α] [Div α] (T : TransferComplex α)
    {N1 N2 n1 n2 : Int} {c1 c2 : Int → Int → α} (h1 : Values T.coef1 N1 n1 c1) (h2 : Values T.coef2 N2 n2 c2)
    (orbtype : Str → Option Str) (orbnum : Str → Option Int) {k1 k2 : Str} {m1 m2 row1 row2 : Int}
    (t1 : orbtype "mon1".toList = some k1) (t2 : orbtype "mon2".toList = some k2)
    (o1 : orbnum "mon1".toList = some m1) (o2 : orbnum "mon2".toList = some m2)
    (s1 : NamesOrbital T.orbs1 k1 m1 row1) (s2 : NamesOrbital T.orbs2 k2 m2 row2)
    (r1 : 1 ≤ row1 ∧ row1 ≤ N1) (r2 : 1 ≤ row2 ∧ row2 ≤ N2) :
    ∃ a b, Values a 1 n1 (fun _ j => c1 row1 j) ∧ Values b 1 n2 (fun _ j => c2 row2 j) ∧
      T.calcJReport orbtype orbnum = transferReport a b T.coefP T.S T.oe T.cp := by
  obtain ⟨d, ed, hd⟩ := default_isMat (α := α)
  obtain ⟨x1, e1, hx1⟩ := selectRow_ok h1 s1 r1
  obtain ⟨x2, e2, hx2⟩ := selectRow_ok h2 s2 r2
  have q1 := h1.pos
  have q2 := h2.pos
  obtain ⟨a, ea, ha⟩ := assign_isMat hd (Or.inl (by omega)) hx1 (by omega) q1.2 (by omega)
  obtain ⟨b, eb, hb⟩ := assign_isMat hd (Or.inl (by omega)) hx2 (by omega) q2.2 (by omega)
  refine ⟨a, b, ha.values (by omega) q1.2, hb.values (by omega) q2.2, ?_⟩
  unfold TransferComplex.calcJReport mapAt
  simp only [ed, Res.ok_bind, t1, t2, o1, o2, e1, e2, ea, eb]

/-- C32: an accepted request makes `calcJ` compute the transfer integral of exactly the coefficient rows named by the
user - HOMO + n, or HOMO + 1 + n for the LUMO - independently for the two monomers. -/
theorem C32_selected_rows [Zero α] [One α] [Add α] [Sub α] [Mul α] [Div α] (T : TransferComplex α)
    {N1 N2 n1 n2 : Int} {c1 c2 : Int → Int → α} (h1 : Values T.coef1 N1 n1 c1) (h2 : Values T.coef2 N2 n2 c2)
    (orbtype : Str → Option Str) (orbnum : Str → Option Int) {k1 k2 : Str} {m1 m2 row1 row2 : Int}
    (t1 : orbtype "mon1".toList = some k1) (t2 : orbtype "mon2".toList = some k2)
    (o1 : orbnum "mon1".toList = some m1) (o2 : orbnum "mon2".toList = some m2)
    (s1 : NamesOrbital T.orbs1 k1 m1 row1) (s2 : NamesOrbital T.orbs2 k2 m2 row2)
    (r1 : 1 ≤ row1 ∧ row1 ≤ N1) (r2 : 1 ≤ row2 ∧ row2 ≤ N2) :
    ∃ a b, Values a 1 n1 (fun _ j => c1 row1 j) ∧ Values b 1 n2 (fun _ j => c2 row2 j) ∧
      T.calcJ orbtype orbnum = calculateTransferIntegral a b T.coefP T.S T.oe T.cp := by
  obtain ⟨a, b, ha, hb, e⟩ := C32_report_rows T h1 h2 orbtype orbnum t1 t2 o1 o2 s1 s2 r1 r2
  refine ⟨a, b, ha, hb, ?_⟩
  unfold TransferComplex.calcJ calculateTransferIntegral
  rw [e]

/-- C33 (first monomer): a request that names no orbital is refused with `invalid_argument`. -/
theorem C33_rejects_mon1 [Zero α] [One α] [Add α] [Sub α] [Mul α] [Div α] (T : TransferComplex α)
    (orbtype : Str → Option Str) (orbnum : Str → Option Int) {k1 : Str} {m1 : Int}
    (t1 : orbtype "mon1".toList = some k1) (o1 : orbnum "mon1".toList = some m1)
    (s1 : ¬ ∃ row, NamesOrbital T.orbs1 k1 m1 row) : T.calcJ orbtype orbnum = .throw .invalidArgument := by
  obtain ⟨d, ed, hd⟩ := default_isMat (α := α)
  rw [TransferComplex.calcJ_def]; unfold mapAt
  simp only [ed, Res.ok_bind, t1, o1, selectRow_throw T.coef1 s1, Res.throw_bind]

/-- C33 (second monomer): likewise, the first request being a valid one. -/
theorem C33_rejects_mon2 [Zero α] [One α] [Add α] [Sub α] [Mul α] [Div α] (T : TransferComplex α)
    {N1 n1 : Int} {c1 : Int → Int → α} (h1 : Values T.coef1 N1 n1 c1)
    (orbtype : Str → Option Str) (orbnum : Str → Option Int) {k1 k2 : Str} {m1 m2 row1 : Int}
    (t1 : orbtype "mon1".toList = some k1) (t2 : orbtype "mon2".toList = some k2)
    (o1 : orbnum "mon1".toList = some m1) (o2 : orbnum "mon2".toList = some m2)
    (s1 : NamesOrbital T.orbs1 k1 m1 row1) (r1 : 1 ≤ row1 ∧ row1 ≤ N1)
    (s2 : ¬ ∃ row, NamesOrbital T.orbs2 k2 m2 row) : T.calcJ orbtype orbnum = .throw .invalidArgument := by
  obtain ⟨d, ed, hd⟩ := default_isMat (α := α)
  obtain ⟨x1, e1, hx1⟩ := selectRow_ok h1 s1 r1
  have q1 := h1.pos
  obtain ⟨a, ea, ha⟩ := assign_isMat hd (Or.inl (by omega)) hx1 (by omega) q1.2 (by omega)
  rw [TransferComplex.calcJ_def]; unfold mapAt
  simp only [ed, Res.ok_bind, t1, o1, e1, ea, t2, o2, selectRow_throw T.coef2 s2, Res.throw_bind]

/-- C33 (accepted requests): the named orbital exists, and it is occupied exactly for HOMO requests; the names cover
every orbital, each under exactly one name. -/
theorem C33_accepted_in_range (orbs : Int × Int) (hh : 0 ≤ orbs.2) (hN : orbs.2 ≤ orbs.1) :
    (∀ kind n row, NamesOrbital orbs kind n row → 1 ≤ row ∧ row ≤ orbs.1 ∧ (kind = "HOMO".toList ↔ row ≤ orbs.2)) ∧
    (∀ row, 1 ≤ row → row ≤ orbs.1 → ∃! kn : Str × Int, NamesOrbital orbs kn.1 kn.2 row) := by
  constructor
  · rintro kind n row (⟨rfl, a1, a2, rfl⟩ | ⟨rfl, a1, a2, rfl⟩)
    · refine ⟨by omega, by omega, fun _ => by omega, fun _ => rfl⟩
    · refine ⟨by omega, by omega, fun h => absurd h (by decide), fun h => by omega⟩
  · intro row h1 h2
    by_cases h : row ≤ orbs.2
    · refine ⟨("HOMO".toList, row - orbs.2), Or.inl ⟨rfl, by simp; omega, by simp; omega, by simp⟩, ?_⟩
      rintro ⟨k, n⟩ (⟨rfl, a1, a2, e⟩ | ⟨rfl, a1, a2, e⟩)
      · simp at *; omega
      · simp at *; omega
    · refine ⟨("LUMO".toList, row - orbs.2 - 1), Or.inr ⟨rfl, by simp; omega, by simp; omega, by simp⟩, ?_⟩
      rintro ⟨k, n⟩ (⟨rfl, a1, a2, e⟩ | ⟨rfl, a1, a2, e⟩)
      · simp at *; omega
      · simp at *; omega

/-- C33 (missing request): an absent key surfaces as `out_of_range`, never as a silently chosen orbital. -/
theorem C33_missing [Zero α] [One α] [Add α] [Sub α] [Mul α] [Div α] (T : TransferComplex α)
    (orbtype : Str → Option Str) (orbnum : Str → Option Int)
    (h : orbtype "mon1".toList = none ∨ orbnum "mon1".toList = none) : T.calcJ orbtype orbnum = .throw .outOfRange := by
  obtain ⟨d, ed, hd⟩ := default_isMat (α := α)
  rw [TransferComplex.calcJ_def]; unfold mapAt
  rcases h with h | h
  · simp only [ed, Res.ok_bind, h, Res.throw_bind]
  · cases e : orbtype "mon1".toList <;> simp only [ed, Res.ok_bind, h, Res.throw_bind]

/-! ### dimensions -/

/-- C34 (what the constructor checks): exactly the column counts; anything else is refused with `invalid_argument`. -/
theorem C34_ctor (coef1 coef2 coefP : Mat α) (orbs1 orbs2 : Int × Int) (S oe : Mat α) (cp : Bool) :
    let ok := S.cols = coefP.cols ∧
      if cp then coef1.cols = coefP.cols ∧ coef2.cols = coefP.cols else coef1.cols + coef2.cols ≤ coefP.cols
    (ok → TransferComplex.new coef1 coef2 coefP orbs1 orbs2 S oe cp = .ok ⟨coef1, coef2, coefP, orbs1, orbs2, S, oe, false, cp⟩) ∧
    (¬ ok → TransferComplex.new coef1 coef2 coefP orbs1 orbs2 S oe cp = .throw .invalidArgument) := by
  unfold TransferComplex.new
  cases cp <;> simp only [Bool.false_eq_true, if_false, if_true]
  · constructor
    · rintro ⟨h1, h2⟩
      rw [if_neg (by simpa using h1), if_neg (by omega)]
    · intro h
      by_cases h1 : S.cols = coefP.cols
      · rw [if_neg (by simpa using h1), if_pos (by by_contra h2; exact h ⟨h1, by omega⟩)]
      · rw [if_pos h1]
  · constructor
    · rintro ⟨h1, h2, h3⟩
      rw [if_neg (by simpa using h1), if_neg (by simpa using h2), if_neg (by simpa using h3)]
    · intro h
      by_cases h1 : S.cols = coefP.cols
      · rw [if_neg (by simpa using h1)]
        by_cases h2 : coef1.cols = coefP.cols
        · rw [if_neg (by simpa using h2), if_pos (by intro h3; exact h ⟨h1, h2, h3⟩)]
        · rw [if_pos h2]
      · rw [if_pos h1]

section
variable [Zero α] [One α] [Add α] [Sub α] [Mul α] [Div α] {coef1 coef2 coefP S oe : Mat α} {cp : Bool}
  {n1 n2 M N K L : Int} {u v : Int → α} {C s : Int → Int → α} {E : Int → α}

/-- C34 (partial): when the monomer bases add up to the rows of the overlap (or equal them, with counterpoise) and there
is one energy per dimer orbital, the integral is computed. Missing: the constructor lets other dimensions through. -/
theorem C34_completes_partial
    (h1 : Values coef1 1 n1 (fun _ j => u j)) (h2 : Values coef2 1 n2 (fun _ j => v j)) (hP : Values coefP M N C)
    (hS : Values S K N s) (hE : VectorOf oe M E) (hc : Conforming cp n1 n2 K) :
    ∃ J, calculateTransferIntegral coef1 coef2 coefP S oe cp = .ok J := ⟨_, transfer_core h1 h2 hP hS hE hc⟩

/-- C34 (refuted, in general): if the bases do not add up to the rows of the overlap, or the number of energies is not
the number of dimer orbitals - neither is checked by the constructor - the process is terminated with status 1. -/
theorem C34_refuted_general
    (h1 : Values coef1 1 n1 (fun _ j => u j)) (h2 : Values coef2 1 n2 (fun _ j => v j)) (hP : Values coefP M N C)
    (hS : Values S K N s) (hE : VectorOf oe L E) (hc : ¬ (Conforming cp n1 n2 K ∧ L = M)) :
    calculateTransferIntegral coef1 coef2 coefP S oe cp = .exit 1 := by
  obtain ⟨-, p1⟩ := h1.pos
  obtain ⟨-, p2⟩ := h2.pos
  obtain ⟨pM, pN⟩ := hP.pos
  obtain ⟨pK, -⟩ := hS.pos
  obtain ⟨i1, ei1, hi1⟩ := invert_isMat h1.isMat (by omega) p1
  obtain ⟨i2, ei2, hi2⟩ := invert_isMat h2.isMat (by omega) p2
  obtain ⟨iP, eiP, hiP⟩ := invert_isMat hP.isMat pM pN
  obtain ⟨dA, edA, hdA⟩ := default_isMat (α := α)
  obtain ⟨pL, En, eEn, hEn⟩ := hE.diag
  have hz : ∃ zA zB, (if cp then do
      let a ← dA.assign i1
      let b ← dA.assign i2
      Res.ok (a, b)
    else do
      let zerosA ← Mat.mk3 i1.rows 1 i1.shel
      let zerosB ← Mat.mk3 i2.rows 1 i2.shel
      let ca ← i1.concatRows zerosB
      let a ← dA.assign ca
      let cb ← zerosA.concatRows i2
      let b ← dA.assign cb
      Res.ok (a, b)) = Res.ok (zA, zB) ∧ (∃ f, IsMat zA (if cp then n1 else n1 + n2) 1 1 f) ∧ ∃ f, IsMat zB (if cp then n2 else n1 + n2) 1 1 f := by
    cases cp with
    | true =>
      obtain ⟨a, ea, ha⟩ := assign_isMat hdA (Or.inl (by omega)) hi1 (by omega) (by omega) (by omega)
      obtain ⟨b, eb, hb⟩ := assign_isMat hdA (Or.inl (by omega)) hi2 (by omega) (by omega) (by omega)
      exact ⟨a, b, by simp [ea, eb], ⟨_, ha⟩, ⟨_, hb⟩⟩
    | false =>
      obtain ⟨zA, ezA, hzA⟩ := mk3_isMat (α := α) (r := n1) (c := 1) (s := 1) (by omega) (by omega) (by omega)
      obtain ⟨zB, ezB, hzB⟩ := mk3_isMat (α := α) (r := n2) (c := 1) (s := 1) (by omega) (by omega) (by omega)
      obtain ⟨ca, eca, hca⟩ := concatRows_isMat hi1 hzB (by omega) (by omega) (by omega) (by omega)
      obtain ⟨cb, ecb, hcb⟩ := concatRows_isMat hzA hi2 (by omega) (by omega) (by omega) (by omega)
      obtain ⟨a, ea, ha⟩ := assign_isMat hdA (Or.inl (by omega)) hca (by omega) (by omega) (by omega)
      obtain ⟨b, eb, hb⟩ := assign_isMat hdA (Or.inl (by omega)) hcb (by omega) (by omega) (by omega)
      exact ⟨a, b, by simp [hi1.rows, hi1.shel, hi2.rows, hi2.shel, ezA, ezB, eca, ecb, ea, eb], ⟨_, ha⟩, ⟨_, hb⟩⟩
  obtain ⟨zA, zB, ez, ⟨fA, hzA⟩, ⟨fB, hzB⟩⟩ := hz
  obtain ⟨zAi, ezAi, hzAi⟩ := invert_isMat hzA (by split <;> omega) (by omega)
  obtain ⟨zBi, ezBi, hzBi⟩ := invert_isMat hzB (by split <;> omega) (by omega)
  obtain ⟨I, eI, hI⟩ := mul_isMat hS.isMat hiP (by omega) (by omega)
  rw [calculateTransferIntegral_def]
  simp only [ei1, ei2, eiP, edA, Res.ok_bind, ez, ezAi, ezBi, eI]
  by_cases ha : (if cp then n1 else n1 + n2) = K
  swap
  · rw [C10_refused zAi I (by rw [hzAi.cols, hI.rows]; tauto), Res.exit_bind]
  rw [ha] at hzAi
  obtain ⟨gA, egA, hgA⟩ := mul_isMat hzAi hI (by omega) (by omega)
  simp only [egA, Res.ok_bind]
  by_cases hb : (if cp then n2 else n1 + n2) = K
  swap
  · rw [C10_refused zBi I (by rw [hzBi.cols, hI.rows]; tauto), Res.exit_bind]
  rw [hb] at hzBi
  obtain ⟨gB, egB, hgB⟩ := mul_isMat hzBi hI (by omega) (by omega)
  obtain ⟨gAi, egAi, hgAi⟩ := invert_isMat hgA (by omega) (by omega)
  obtain ⟨gBi, egBi, hgBi⟩ := invert_isMat hgB (by omega) (by omega)
  obtain ⟨sAB, esAB, hsAB⟩ := mul_isMat hgB hgAi (by omega) (by omega)
  simp only [egB, egAi, egBi, esAB, eEn, Res.ok_bind]
  have hconf : Conforming cp n1 n2 K := by
    unfold Conforming
    cases cp <;> simp at * <;> tauto
  rw [C10_refused En gAi (by rw [hEn.cols, hgAi.rows]; tauto), Res.exit_bind]

end

/-! ### the value -/

section
variable [Field α] {coef1 coef2 coefP S oe : Mat α} {cp : Bool}
  {n1 n2 M N K : Int} {u v : Int → α} {C s : Int → Int → α} {E : Int → α}

/-- C35: the value returned is the Loewdin-orthogonalised coupling, in exact arithmetic, for `S_ab² ≠ 1`. -/
theorem C35_formula
    (h1 : Values coef1 1 n1 (fun _ j => u j)) (h2 : Values coef2 1 n2 (fun _ j => v j)) (hP : Values coefP M N C)
    (hS : Values S K N s) (hE : VectorOf oe M E) (hc : Conforming cp n1 n2 K)
    (_hne : overlapAB M (proj K N (zetaA cp n1 u) s C) (proj K N (zetaB cp n1 v) s C) ^ 2 ≠ 1) :
    calculateTransferIntegral coef1 coef2 coefP S oe cp =
      .ok (coupling M (proj K N (zetaA cp n1 u) s C) (proj K N (zetaB cp n1 v) s C) E) := transfer_eq h1 h2 hP hS hE hc

/-- C35 (defining equation): multiplied out, so that no convention about division is involved. -/
theorem C35_equation (h2' : (2 : α) ≠ 0)
    (h1 : Values coef1 1 n1 (fun _ j => u j)) (h2 : Values coef2 1 n2 (fun _ j => v j)) (hP : Values coefP M N C)
    (hS : Values S K N s) (hE : VectorOf oe M E) (hc : Conforming cp n1 n2 K)
    (hne : overlapAB M (proj K N (zetaA cp n1 u) s C) (proj K N (zetaB cp n1 v) s C) ^ 2 ≠ 1) :
    ∃ J, calculateTransferIntegral coef1 coef2 coefP S oe cp = .ok J ∧
      let gA := proj K N (zetaA cp n1 u) s C
      let gB := proj K N (zetaB cp n1 v) s C
      2 * (1 - overlapAB M gA gB ^ 2) * J =
        2 * couplingJ M gA gB E - (siteEnergy M gA E + siteEnergy M gB E) * overlapAB M gA gB := by
  refine ⟨_, C35_formula h1 h2 hP hS hE hc hne, ?_⟩
  simp only [coupling]
  have hne' : 1 - overlapAB M (proj K N (zetaA cp n1 u) s C) (proj K N (zetaB cp n1 v) s C) ^ 2 ≠ 0 :=
    fun h => hne (sub_eq_zero.1 h).symm
  field_simp

/-- C35 (through `calcJ`): the coupling of the two orbitals the user named. -/
theorem C35_calcJ (T : TransferComplex α)
    {N1 N2 : Int} {c1 c2 : Int → Int → α} (h1 : Values T.coef1 N1 n1 c1) (h2 : Values T.coef2 N2 n2 c2)
    (hP : Values T.coefP M N C) (hS : Values T.S K N s) (hE : VectorOf T.oe M E) (hc : Conforming T.cp n1 n2 K)
    (orbtype : Str → Option Str) (orbnum : Str → Option Int) {k1 k2 : Str} {m1 m2 row1 row2 : Int}
    (t1 : orbtype "mon1".toList = some k1) (t2 : orbtype "mon2".toList = some k2)
    (o1 : orbnum "mon1".toList = some m1) (o2 : orbnum "mon2".toList = some m2)
    (s1 : NamesOrbital T.orbs1 k1 m1 row1) (s2 : NamesOrbital T.orbs2 k2 m2 row2)
    (r1 : 1 ≤ row1 ∧ row1 ≤ N1) (r2 : 1 ≤ row2 ∧ row2 ≤ N2) :
    T.calcJ orbtype orbnum =
      .ok (coupling M (proj K N (zetaA T.cp n1 (c1 row1)) s C) (proj K N (zetaB T.cp n1 (c2 row2)) s C) E) := by
  obtain ⟨a, b, ha, hb, e⟩ := C32_selected_rows T h1 h2 orbtype orbnum t1 t2 o1 o2 s1 s2 r1 r2
  rw [e]
  exact transfer_eq (u := c1 row1) (v := c2 row2) ha hb hP hS hE hc

end

/-! ### symmetries -/

section
variable [Field α]

theorem coupling_comm (M : Int) (gA gB E : Int → α) : coupling M gA gB E = coupling M gB gA E := by
  have e1 : couplingJ M gA gB E = couplingJ M gB gA E := Finset.sum_congr rfl fun m _ => by ring
  have e2 : overlapAB M gA gB = overlapAB M gB gA := Finset.sum_congr rfl fun m _ => by ring
  unfold coupling
  rw [e1, e2, add_comm (siteEnergy M gA E)]

theorem coupling_congr {M : Int} {gA gB gA' gB' E : Int → α} (hA : ∀ m, 1 ≤ m → m ≤ M → gA m = gA' m)
    (hB : ∀ m, 1 ≤ m → m ≤ M → gB m = gB' m) : coupling M gA gB E = coupling M gA' gB' E := by
  have e1 : couplingJ M gA gB E = couplingJ M gA' gB' E := Finset.sum_congr rfl fun m hm => by
    rw [Finset.mem_Icc] at hm; rw [hA m hm.1 hm.2, hB m hm.1 hm.2]
  have e2 : overlapAB M gA gB = overlapAB M gA' gB' := Finset.sum_congr rfl fun m hm => by
    rw [Finset.mem_Icc] at hm; rw [hA m hm.1 hm.2, hB m hm.1 hm.2]
  have e3 : siteEnergy M gA E = siteEnergy M gA' E := Finset.sum_congr rfl fun m hm => by
    rw [Finset.mem_Icc] at hm; rw [hA m hm.1 hm.2]
  have e4 : siteEnergy M gB E = siteEnergy M gB' E := Finset.sum_congr rfl fun m hm => by
    rw [Finset.mem_Icc] at hm; rw [hB m hm.1 hm.2]
  unfold coupling
  rw [e1, e2, e3, e4]

theorem coupling_phase {M : Int} {gA gB E σ : Int → α} (hσ : ∀ m, σ m ^ 2 = 1) :
    coupling M (fun m => σ m * gA m) (fun m => σ m * gB m) E = coupling M gA gB E := by
  have e1 : couplingJ M (fun m => σ m * gA m) (fun m => σ m * gB m) E = couplingJ M gA gB E :=
    Finset.sum_congr rfl fun m _ => by linear_combination (gB m * E m * gA m) * hσ m
  have e2 : overlapAB M (fun m => σ m * gA m) (fun m => σ m * gB m) = overlapAB M gA gB :=
    Finset.sum_congr rfl fun m _ => by linear_combination (gB m * gA m) * hσ m
  have e3 : ∀ g : Int → α, siteEnergy M (fun m => σ m * g m) E = siteEnergy M g E := fun g =>
    Finset.sum_congr rfl fun m _ => by linear_combination (g m ^ 2 * E m) * hσ m
  unfold coupling
  rw [e1, e2, e3, e3]

theorem coupling_neg (M : Int) (gA gB E : Int → α) : coupling M (fun m => - gA m) gB E = - coupling M gA gB E := by
  have e1 : couplingJ M (fun m => - gA m) gB E = - couplingJ M gA gB E := by
    unfold couplingJ; rw [← Finset.sum_neg_distrib]; exact Finset.sum_congr rfl fun m _ => by ring
  have e2 : overlapAB M (fun m => - gA m) gB = - overlapAB M gA gB := by
    unfold overlapAB; rw [← Finset.sum_neg_distrib]; exact Finset.sum_congr rfl fun m _ => by ring
  have e3 : siteEnergy M (fun m => - gA m) E = siteEnergy M gA E := Finset.sum_congr rfl fun m _ => by ring
  unfold coupling
  rw [e1, e2, e3, neg_sq, ← neg_div]
  congr 1
  ring

theorem zetaA_neg (cp : Bool) (n1 : Int) (u : Int → α) : zetaA cp n1 (fun j => - u j) = fun p => - zetaA cp n1 u p := by
  funext p
  unfold zetaA
  split
  · rfl
  · split <;> simp

theorem zetaB_neg (cp : Bool) (n1 : Int) (u : Int → α) : zetaB cp n1 (fun j => - u j) = fun p => - zetaB cp n1 u p := by
  funext p
  unfold zetaB
  split
  · rfl
  · split <;> simp

theorem proj_neg (K N : Int) (z : Int → α) (S C : Int → Int → α) :
    proj K N (fun p => - z p) S C = fun m => - proj K N z S C m := by
  funext m
  unfold proj
  simp only [neg_mul, Finset.sum_neg_distrib]

theorem coupling_scale (M : Int) (gA gB E : Int → α) (k : α) :
    coupling M gA gB (fun m => k * E m) = k * coupling M gA gB E := by
  have e1 : couplingJ M gA gB (fun m => k * E m) = k * couplingJ M gA gB E := by
    unfold couplingJ; rw [Finset.mul_sum]; exact Finset.sum_congr rfl fun m _ => by ring
  have e3 : ∀ g : Int → α, siteEnergy M g (fun m => k * E m) = k * siteEnergy M g E := by
    intro g; unfold siteEnergy; rw [Finset.mul_sum]; exact Finset.sum_congr rfl fun m _ => by ring
  unfold coupling
  rw [e1, e3, e3, ← mul_div_assoc]
  congr 1
  ring

theorem coupling_add (M : Int) (gA gB E E' : Int → α) :
    coupling M gA gB (fun m => E m + E' m) = coupling M gA gB E + coupling M gA gB E' := by
  have e1 : couplingJ M gA gB (fun m => E m + E' m) = couplingJ M gA gB E + couplingJ M gA gB E' := by
    unfold couplingJ; rw [← Finset.sum_add_distrib]; exact Finset.sum_congr rfl fun m _ => by ring
  have e3 : ∀ g : Int → α, siteEnergy M g (fun m => E m + E' m) = siteEnergy M g E + siteEnergy M g E' := by
    intro g; unfold siteEnergy; rw [← Finset.sum_add_distrib]; exact Finset.sum_congr rfl fun m _ => by ring
  unfold coupling
  rw [e1, e3, e3, ← add_div]
  congr 1
  ring

theorem coupling_const (M : Int) (gA gB : Int → α) (c : α) : coupling M gA gB (fun _ => c) =
    c * overlapAB M gA gB * (1 - ((∑ m ∈ Icc 1 M, gA m ^ 2) + ∑ m ∈ Icc 1 M, gB m ^ 2) / 2) / (1 - overlapAB M gA gB ^ 2) := by
  have e1 : couplingJ M gA gB (fun _ => c) = c * overlapAB M gA gB := by
    unfold couplingJ overlapAB; rw [Finset.mul_sum]; exact Finset.sum_congr rfl fun m _ => by ring
  have e3 : ∀ g : Int → α, siteEnergy M g (fun _ => c) = c * ∑ m ∈ Icc 1 M, g m ^ 2 := by
    intro g; unfold siteEnergy; rw [Finset.mul_sum]; exact Finset.sum_congr rfl fun m _ => by ring
  unfold coupling
  rw [e1, e3, e3]
  congr 1
  ring

/-- A relabelling of `1..K`. -/
structure Relabelling (K : Int) (π : Int → Int) : Prop where
  maps : ∀ p, 1 ≤ p → p ≤ K → 1 ≤ π p ∧ π p ≤ K
  inj : ∀ p q, 1 ≤ p → p ≤ K → 1 ≤ q → q ≤ K → π p = π q → p = q

theorem Relabelling.sum {K : Int} {π : Int → Int} (h : Relabelling K π) (f : Int → α) :
    ∑ p ∈ Icc 1 K, f (π p) = ∑ p ∈ Icc 1 K, f p := by
  refine Finset.sum_nbij π ?_ ?_ ?_ (fun _ _ => rfl)
  · intro p hp; rw [Finset.mem_Icc] at hp ⊢; exact h.maps p hp.1 hp.2
  · intro p hp q hq e
    rw [Finset.coe_Icc, Set.mem_Icc] at hp hq
    exact h.inj p q hp.1 hp.2 hq.1 hq.2 e
  · apply Finset.surjOn_of_injOn_of_card_le
    · intro p hp; rw [Finset.coe_Icc, Set.mem_Icc] at hp ⊢; exact h.maps p hp.1 hp.2
    · intro p hp q hq e
      rw [Finset.coe_Icc, Set.mem_Icc] at hp hq
      exact h.inj p q hp.1 hp.2 hq.1 hq.2 e
    · exact le_refl _

theorem proj_relabel {K : Int} {π : Int → Int} (h : Relabelling K π) (z z' : Int → α) (S C : Int → Int → α)
    (hz : ∀ p, 1 ≤ p → p ≤ K → z' p = z (π p)) (m : Int) :
    proj K K z' (fun p q => S (π p) (π q)) (fun m q => C m (π q)) m = proj K K z S C m := by
  unfold proj
  rw [← h.sum (fun p => ∑ q ∈ Icc 1 K, z p * S p q * C m q)]
  refine Finset.sum_congr rfl fun p hp => ?_
  rw [Finset.mem_Icc] at hp
  rw [← h.sum (fun q => z (π p) * S (π p) q * C m q)]
  refine Finset.sum_congr rfl fun q hq => ?_
  rw [hz p hp.1 hp.2]

variable {coef1 coef2 coefP S oe : Mat α} {cp : Bool}
  {n1 n2 M N K : Int} {u v : Int → α} {C s : Int → Int → α} {E : Int → α}

/-- C36 (counterpoise): exchanging the monomers. -/
theorem C36_symmetric
    (h1 : Values coef1 1 n1 (fun _ j => u j)) (h2 : Values coef2 1 n2 (fun _ j => v j)) (hP : Values coefP M N C)
    (hS : Values S K N s) (hE : VectorOf oe M E) (hc : Conforming true n1 n2 K) :
    calculateTransferIntegral coef1 coef2 coefP S oe true = calculateTransferIntegral coef2 coef1 coefP S oe true := by
  have hc' : Conforming true n2 n1 K := by unfold Conforming at *; simp at *; tauto
  rw [transfer_eq h1 h2 hP hS hE hc, transfer_eq h2 h1 hP hS hE hc', coupling_comm]
  rfl

/-- The exchange of the two blocks of a basis of `n1 + n2` functions: position `p` of the exchanged basis holds
function `blockSwap n1 n2 p`. -/
def blockSwap (n1 n2 p : Int) : Int := if p ≤ n2 then n1 + p else p - n2

theorem blockSwap_relabelling {n1 n2 : Int} (h1 : 1 ≤ n1) (h2 : 1 ≤ n2) : Relabelling (n1 + n2) (blockSwap n1 n2) := by
  constructor
  · intro p p1 p2; unfold blockSwap; split <;> omega
  · intro p q p1 p2 q1 q2 e; unfold blockSwap at e; split at e <;> split at e <;> omega

/-- C36 (no counterpoise): exchanging the monomers and, accordingly, the two basis blocks of the dimer. -/
theorem C36_symmetric_blocks {coefP' S' : Mat α}
    (h1 : Values coef1 1 n1 (fun _ j => u j)) (h2 : Values coef2 1 n2 (fun _ j => v j))
    (hP : Values coefP M (n1 + n2) C) (hS : Values S (n1 + n2) (n1 + n2) s) (hE : VectorOf oe M E)
    (hP' : Values coefP' M (n1 + n2) (fun m q => C m (blockSwap n1 n2 q)))
    (hS' : Values S' (n1 + n2) (n1 + n2) (fun p q => s (blockSwap n1 n2 p) (blockSwap n1 n2 q))) :
    calculateTransferIntegral coef1 coef2 coefP S oe false = calculateTransferIntegral coef2 coef1 coefP' S' oe false := by
  have hb := blockSwap_relabelling h1.pos.2 h2.pos.2
  rw [transfer_eq h1 h2 hP hS hE (by simp [Conforming]), transfer_eq h2 h1 hP' hS' hE (by simp [Conforming, add_comm]), coupling_comm]
  congr 1
  apply coupling_congr
  · intro m _ _
    refine (proj_relabel hb _ _ s C ?_ m).symm
    intro p p1 p2
    simp only [zetaA, zetaB, blockSwap, Bool.false_eq_true, if_false]
    by_cases hp : p ≤ n2
    · simp only [hp, if_true]; rw [if_neg (by omega)]; congr 1; omega
    · simp only [hp, if_false]; rw [if_pos (by omega)]
  · intro m _ _
    refine (proj_relabel hb _ _ s C ?_ m).symm
    intro p p1 p2
    simp only [zetaA, zetaB, blockSwap, Bool.false_eq_true, if_false]
    by_cases hp : p ≤ n2
    · simp only [hp, if_true]; rw [if_neg (by omega)]
    · simp only [hp, if_false]; rw [if_pos (by omega)]

/-- C37: any set of dimer orbitals may change phase. -/
theorem C37_dimer_phase {coefP' : Mat α} (σ : Int → α) (hσ : ∀ m, σ m = 1 ∨ σ m = -1)
    (h1 : Values coef1 1 n1 (fun _ j => u j)) (h2 : Values coef2 1 n2 (fun _ j => v j)) (hP : Values coefP M N C)
    (hP' : Values coefP' M N (fun m q => σ m * C m q))
    (hS : Values S K N s) (hE : VectorOf oe M E) (hc : Conforming cp n1 n2 K) :
    calculateTransferIntegral coef1 coef2 coefP' S oe cp = calculateTransferIntegral coef1 coef2 coefP S oe cp := by
  rw [transfer_eq h1 h2 hP hS hE hc, transfer_eq h1 h2 hP' hS hE hc]
  have hp : ∀ z : Int → α, proj K N z s (fun m q => σ m * C m q) = fun m => σ m * proj K N z s C m := by
    intro z
    funext m
    unfold proj
    rw [Finset.mul_sum]
    refine Finset.sum_congr rfl fun p _ => ?_
    rw [Finset.mul_sum]
    refine Finset.sum_congr rfl fun q _ => by ring
  have hsq : ∀ m, σ m ^ 2 = 1 := by intro m; rcases hσ m with h | h <;> rw [h] <;> ring
  rw [hp, hp, coupling_phase hsq]

/-- C38 (monomer 1): negating its orbital negates the coupling. -/
theorem C38_sign_first {coef1' : Mat α}
    (h1 : Values coef1 1 n1 (fun _ j => u j)) (h1' : Values coef1' 1 n1 (fun _ j => - u j))
    (h2 : Values coef2 1 n2 (fun _ j => v j)) (hP : Values coefP M N C)
    (hS : Values S K N s) (hE : VectorOf oe M E) (hc : Conforming cp n1 n2 K) :
    ∃ J, calculateTransferIntegral coef1 coef2 coefP S oe cp = .ok J ∧
      calculateTransferIntegral coef1' coef2 coefP S oe cp = .ok (-J) := by
  refine ⟨_, transfer_eq h1 h2 hP hS hE hc, ?_⟩
  rw [transfer_eq (u := fun j => - u j) h1' h2 hP hS hE hc, zetaA_neg, proj_neg, coupling_neg]

/-- C38 (monomer 2). -/
theorem C38_sign_second {coef2' : Mat α}
    (h1 : Values coef1 1 n1 (fun _ j => u j)) (h2 : Values coef2 1 n2 (fun _ j => v j))
    (h2' : Values coef2' 1 n2 (fun _ j => - v j)) (hP : Values coefP M N C)
    (hS : Values S K N s) (hE : VectorOf oe M E) (hc : Conforming cp n1 n2 K) :
    ∃ J, calculateTransferIntegral coef1 coef2 coefP S oe cp = .ok J ∧
      calculateTransferIntegral coef1 coef2' coefP S oe cp = .ok (-J) := by
  refine ⟨_, transfer_eq h1 h2 hP hS hE hc, ?_⟩
  rw [transfer_eq (v := fun j => - v j) h1 h2' hP hS hE hc, zetaB_neg, proj_neg, coupling_comm, coupling_neg, coupling_comm]

/-- C38 (both). -/
theorem C38_sign_both {coef1' coef2' : Mat α}
    (h1 : Values coef1 1 n1 (fun _ j => u j)) (h1' : Values coef1' 1 n1 (fun _ j => - u j))
    (h2 : Values coef2 1 n2 (fun _ j => v j)) (h2' : Values coef2' 1 n2 (fun _ j => - v j)) (hP : Values coefP M N C)
    (hS : Values S K N s) (hE : VectorOf oe M E) (hc : Conforming cp n1 n2 K) :
    calculateTransferIntegral coef1' coef2' coefP S oe cp = calculateTransferIntegral coef1 coef2 coefP S oe cp := by
  rw [transfer_eq h1 h2 hP hS hE hc, transfer_eq (u := fun j => - u j) (v := fun j => - v j) h1' h2' hP hS hE hc,
    zetaA_neg, zetaB_neg, proj_neg, proj_neg, coupling_neg, coupling_comm, coupling_neg, coupling_comm, neg_neg]

/-- C39 (scaling the dimer orbital energies). -/
theorem C39_scale {oe' : Mat α} (k : α)
    (h1 : Values coef1 1 n1 (fun _ j => u j)) (h2 : Values coef2 1 n2 (fun _ j => v j)) (hP : Values coefP M N C)
    (hS : Values S K N s) (hE : VectorOf oe M E) (hE' : VectorOf oe' M (fun m => k * E m)) (hc : Conforming cp n1 n2 K) :
    ∃ J, calculateTransferIntegral coef1 coef2 coefP S oe cp = .ok J ∧
      calculateTransferIntegral coef1 coef2 coefP S oe' cp = .ok (k * J) := by
  refine ⟨_, transfer_eq h1 h2 hP hS hE hc, ?_⟩
  rw [transfer_eq h1 h2 hP hS hE' hc, coupling_scale]

/-- C39 (adding energies). -/
theorem C39_add {oe' oe'' : Mat α} {E' : Int → α}
    (h1 : Values coef1 1 n1 (fun _ j => u j)) (h2 : Values coef2 1 n2 (fun _ j => v j)) (hP : Values coefP M N C)
    (hS : Values S K N s) (hE : VectorOf oe M E) (hE' : VectorOf oe' M E') (hE'' : VectorOf oe'' M (fun m => E m + E' m))
    (hc : Conforming cp n1 n2 K) :
    ∃ J J', calculateTransferIntegral coef1 coef2 coefP S oe cp = .ok J ∧
      calculateTransferIntegral coef1 coef2 coefP S oe' cp = .ok J' ∧
      calculateTransferIntegral coef1 coef2 coefP S oe'' cp = .ok (J + J') := by
  refine ⟨_, _, transfer_eq h1 h2 hP hS hE hc, transfer_eq h1 h2 hP hS hE' hc, ?_⟩
  rw [transfer_eq h1 h2 hP hS hE'' hc, coupling_add]

/-- C39 (uniform shift): with `n_X = ∑ₘ g_X(m)²` the coupling changes by `c S (1 - (n_a + n_b)/2) / (1 - S²)`. -/
theorem C39_shift {oe' : Mat α} (c : α)
    (h1 : Values coef1 1 n1 (fun _ j => u j)) (h2 : Values coef2 1 n2 (fun _ j => v j)) (hP : Values coefP M N C)
    (hS : Values S K N s) (hE : VectorOf oe M E) (hE' : VectorOf oe' M (fun m => E m + c)) (hc : Conforming cp n1 n2 K) :
    ∃ J, calculateTransferIntegral coef1 coef2 coefP S oe cp = .ok J ∧
      let gA := proj K N (zetaA cp n1 u) s C
      let gB := proj K N (zetaB cp n1 v) s C
      calculateTransferIntegral coef1 coef2 coefP S oe' cp =
        .ok (J + c * overlapAB M gA gB * (1 - ((∑ m ∈ Icc 1 M, gA m ^ 2) + ∑ m ∈ Icc 1 M, gB m ^ 2) / 2)
          / (1 - overlapAB M gA gB ^ 2)) := by
  refine ⟨_, transfer_eq h1 h2 hP hS hE hc, ?_⟩
  simp only []
  rw [transfer_eq h1 h2 hP hS hE' hc, coupling_add, coupling_const]

/-- C39 (normalised projections): then a uniform shift changes nothing. -/
theorem C39_shift_normalised {oe' : Mat α} (c : α) (h2' : (2 : α) ≠ 0)
    (h1 : Values coef1 1 n1 (fun _ j => u j)) (h2 : Values coef2 1 n2 (fun _ j => v j)) (hP : Values coefP M N C)
    (hS : Values S K N s) (hE : VectorOf oe M E) (hE' : VectorOf oe' M (fun m => E m + c)) (hc : Conforming cp n1 n2 K)
    (hA : ∑ m ∈ Icc 1 M, proj K N (zetaA cp n1 u) s C m ^ 2 = 1) (hB : ∑ m ∈ Icc 1 M, proj K N (zetaB cp n1 v) s C m ^ 2 = 1) :
    calculateTransferIntegral coef1 coef2 coefP S oe' cp = calculateTransferIntegral coef1 coef2 coefP S oe cp := by
  obtain ⟨J, e1, e2⟩ := C39_shift c h1 h2 hP hS hE hE' hc
  rw [e2, e1, hA, hB]
  have : (1 : α) - (1 + 1) / 2 = 0 := by field_simp; ring
  rw [this]
  simp

/-- C40: relabelling the basis functions of monomers, dimer and overlap consistently changes nothing. Without
counterpoise the relabelling keeps the functions of monomer 1 in the first block. -/
theorem C40_relabelling {coef1' coef2' coefP' S' : Mat α} (π : Int → Int) (hπ : Relabelling K π)
    (hblock : cp = false → ∀ p, 1 ≤ p → p ≤ K → (π p ≤ n1 ↔ p ≤ n1))
    (h1 : Values coef1 1 n1 (fun _ j => u j)) (h2 : Values coef2 1 n2 (fun _ j => v j)) (hP : Values coefP M K C)
    (hS : Values S K K s) (hE : VectorOf oe M E) (hc : Conforming cp n1 n2 K)
    (h1' : Values coef1' 1 n1 (fun _ j => u (π j)))
    (h2' : Values coef2' 1 n2 (fun _ j => if cp then v (π j) else v (π (n1 + j) - n1)))
    (hP' : Values coefP' M K (fun m q => C m (π q))) (hS' : Values S' K K (fun p q => s (π p) (π q))) :
    calculateTransferIntegral coef1' coef2' coefP' S' oe cp = calculateTransferIntegral coef1 coef2 coefP S oe cp := by
  rw [transfer_eq h1 h2 hP hS hE hc, transfer_eq (u := fun j => u (π j))
    (v := fun j => if cp then v (π j) else v (π (n1 + j) - n1)) h1' h2' hP' hS' hE hc]
  congr 1
  apply coupling_congr
  · intro m _ _
    refine proj_relabel hπ _ _ s C ?_ m
    intro p p1 p2
    unfold zetaA
    cases cp with
    | true => rfl
    | false =>
      have := hblock rfl p p1 p2
      by_cases hp : p ≤ n1
      · simp [hp, this.2 hp]
      · simp [hp, this]
  · intro m _ _
    refine proj_relabel hπ _ _ s C ?_ m
    intro p p1 p2
    unfold zetaB
    cases cp with
    | true => rfl
    | false =>
      have := hblock rfl p p1 p2
      by_cases hp : p ≤ n1
      · simp [hp, this.2 hp]
      · have e : n1 + (p - n1) = p := by omega
        simp [hp, this, e]

end

/-! ### a concrete case -/

theorem Values.of_table {m : Mat α} {r c : Int} {f : Int → Int → α} [DecidableEq α] (h : WF m ∧ m.rows = r ∧ m.cols = c ∧ m.shel = 1 ∧
    ∀ i ∈ irange 1 r, ∀ j ∈ irange 1 c, m.getElem2 i j = .ok (f i j)) : Values m r c f :=
  ⟨h.1, h.2.1, h.2.2.1, h.2.2.2.1, fun i j a b c d => h.2.2.2.2 i (mem_irange.2 ⟨a, b⟩) j (mem_irange.2 ⟨c, d⟩)⟩

/-- Two one-orbital monomers with one and two basis functions, a dimer of three orbitals. -/
def exMon1 : Mat Rat := ⟨1, 1, 1, [some 2]⟩
def exMon2 : Mat Rat := ⟨1, 2, 1, [some 1, some (-1)]⟩
def exDimer : Mat Rat := ⟨3, 3, 1, [some 1, some 0, some 1, some 0, some 1, some 2, some 1, some 1, some 0]⟩
def exS : Mat Rat := ⟨3, 3, 1, [some 2, some 0, some 1, some 0, some 2, some 0, some 1, some 0, some 2]⟩
def exOE : Mat Rat := ⟨3, 1, 1, [some (-3), some (-1), some 2]⟩

def exC (i j : Int) : Rat := if i + j = 2 ∨ i + j = 4 then 1 else if i + j = 5 then (if i = 2 then 2 else 1) else 0
def exs (i j : Int) : Rat := if i = j then 2 else if i + j = 4 then 1 else 0
def exu (_ : Int) : Rat := 2
def exv (j : Int) : Rat := if j = 1 then 1 else -1
def exE (i : Int) : Rat := if i = 1 then -3 else if i = 2 then -1 else 2

/-- All hypotheses of C35 (and of the symmetry theorems) hold for this dimer. -/
example : Values exMon1 1 1 (fun _ j => exu j) ∧ Values exMon2 1 2 (fun _ j => exv j) ∧ Values exDimer 3 3 exC ∧
    Values exS 3 3 exs ∧ VectorOf exOE 3 exE ∧ Conforming false 1 2 3 ∧
    overlapAB 3 (proj 3 3 (zetaA false 1 exu) exs exC) (proj 3 3 (zetaB false 1 exv) exs exC) ^ 2 ≠ 1 :=
  ⟨Values.of_table (by decide +kernel), Values.of_table (by decide +kernel), Values.of_table (by decide +kernel),
    Values.of_table (by decide +kernel), Or.inl (Values.of_table (by decide +kernel)), by decide, by decide +kernel⟩
example : (Relabelling 3 (fun p => if p = 2 then 3 else if p = 3 then 2 else p)) := by
  constructor
  · intro p p1 p2; split; omega; split <;> omega
  · intro p q p1 p2 q1 q2 e; split at e <;> split at e <;> (try split at e) <;> (try split at e) <;> omega

/-- C34 (refuted, a concrete constructor call): a monomer basis too small for the dimer is accepted, and `calcJ` then
terminates the process. -/
theorem C34_refuted : ∃ T, TransferComplex.new exMon1 exMon1 exDimer (1, 1) (1, 1) exS exOE false = .ok T ∧
    T.calcJ (fun _ => some "HOMO".toList) (fun _ => some 0) = .exit 1 := by
  refine ⟨_, rfl, ?_⟩
  decide +kernel

/-- C34 (refuted, energies): one energy too few is accepted, and `calcJ` then terminates the process. -/
theorem C34_refuted_energies : ∃ T, TransferComplex.new exMon1 exMon2 exDimer (1, 1) (1, 1) exS ⟨2, 1, 1, [some 1, some 2]⟩ false = .ok T ∧
    T.calcJ (fun _ => some "HOMO".toList) (fun _ => some 0) = .exit 1 := by
  refine ⟨_, rfl, ?_⟩
  decide +kernel

end Verif.QC
