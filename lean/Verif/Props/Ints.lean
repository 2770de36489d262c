import Verif.IntsLemmas
import Verif.Props.Transfer
/-
Property C113: the `int` arithmetic of the matrices and of the coupling does not overflow below a stated size.
`Verif.Ints` models the same functions with checked 32-bit arithmetic.
-/
namespace Verif.Ints
open Verif.Mat Verif.QC
variable {α : Type}

/-- C113: reading and writing elements. For a matrix of fewer than 2^31 - 1 elements every access, in or out of range, gives
what it gives with unbounded integers. -/
theorem C113_access {m : Mat α} (h : IntSized m) :
    (∀ r, getElem1 m r = m.getElem1 r) ∧ (∀ r c, getElem2 m r c = m.getElem2 r c) ∧ (∀ r c s, getElem3 m r c s = m.getElem3 r c s) ∧
    (∀ v r, setElem1 m v r = m.setElem1 v r) ∧ (∀ v r c, setElem2 m v r c = m.setElem2 v r c) ∧
    (∀ v r c s, setElem3 m v r c s = m.setElem3 v r c s) :=
  ⟨getElem1_eq h, getElem2_eq h, getElem3_eq h, setElem1_eq h, setElem2_eq h, setElem3_eq h⟩

/-- C113: making a matrix. Below 2^31 - 1 elements nothing overflows, whatever the dimensions (zero and negative ones included);
above it the size itself does. -/
theorem C113_constructor [Zero α] (r c s : Int) :
    ((1 ≤ r → 1 ≤ c → r * c < 2147483647) → (mk2 r c : Res (Mat α)) = Mat.mk2 r c) ∧
    ((1 ≤ r → 1 ≤ c → 1 ≤ s → r * c * s < 2147483647) → (mk3 r c s : Res (Mat α)) = Mat.mk3 r c s) ∧
    (1 ≤ r → 1 ≤ c → 2147483647 < r * c → (mk2 r c : Res (Mat α)) = .ub) ∧
    (1 ≤ r → 1 ≤ c → 1 ≤ s → 2147483647 < r * c * s → (mk3 r c s : Res (Mat α)) = .ub) := by
  refine ⟨mk2_eq, mk3_eq, fun hr hc h => ?_, fun hr hc hs h => ?_⟩
  · unfold mk2 mul
    rw [if_neg (by omega), if_neg (by omega), fit_ub h]
    rfl
  · unfold mk3 mul
    rw [if_neg (by omega), if_neg (by omega), if_neg (by omega)]
    by_cases h2 : 2147483647 < r * c
    · rw [fit_ub h2]; rfl
    · have := dims_le hr hc hs
      rw [fit_ok (by omega) (by omega)]
      simp only [Res.ok_bind]
      rw [fit_ub h]; rfl

/-- C113: the operations on matrices, for operands and results of fewer than 2^31 - 1 elements. -/
theorem C113_operations [Zero α] [Add α] [Mul α] {m m2 : Mat α} (h : IntSized m) (h2 : IntSized m2) :
    invert m = m.invert ∧ assign m m2 = m.assign m2 ∧ (∀ R, getRow m R = m.getRow R) ∧
    (∀ r c, (1 ≤ r → 1 ≤ c → r * c < 2147483647) → resize m r c = m.resize r c) ∧
    (m.rows * m2.cols < 2147483647 → product m m2 = m.mul m2) ∧
    ((m.rows + m2.rows) * m.cols * m.shel < 2147483647 → concatRows m m2 = m.concatRows m2) ∧
    (m.rows * m.rows < 2147483647 ∧ m.cols * m.cols < 2147483647 → diag m = m.diag) :=
  ⟨invert_eq h, assign_eq h h2, getRow_eq h, fun _ _ => resize_eq h, product_eq h h2, concatRows_eq h h2, diag_eq h⟩

/-- C113: `calculate_transfer_integral`. With at most 46340 basis functions and orbitals no `int` overflows, and the report is the
one C32-C35 and C110 speak of. -/
theorem C113_transfer [Zero α] [One α] [Add α] [Sub α] [Mul α] [Div α] {coef1 coef2 coefP S oe : Mat α} (cp : Bool)
    (h1 : Within coef1) (h2 : Within coef2) (hP : Within coefP) (hS : Within S) (hE : Within oe)
    (fit : cp = false → coef1.cols + coef2.cols ≤ 46340) :
    transferReport coef1 coef2 coefP S oe cp = QC.transferReport coef1 coef2 coefP S oe cp :=
  transferReport_eq cp h1 h2 hP hS hE fit

/-- C113: `TransferComplex::calcJ`, for every request whose numbers are `int`s. -/
theorem C113_calcJ [Zero α] [One α] [Add α] [Sub α] [Mul α] [Div α] (T : TransferComplex α)
    (h1 : Within T.coef1) (h2 : Within T.coef2) (hP : Within T.coefP) (hS : Within T.S) (hE : Within T.oe)
    (fit : T.cp = false → T.coef1.cols + T.coef2.cols ≤ 46340)
    (o1 : 0 ≤ T.orbs1.2 ∧ T.orbs1.2 ≤ T.orbs1.1 ∧ T.orbs1.1 ≤ 2147483647) (o2 : 0 ≤ T.orbs2.2 ∧ T.orbs2.2 ≤ T.orbs2.1 ∧ T.orbs2.1 ≤ 2147483647)
    (orbtype : Str → Option Str) (orbnum : Str → Option Int) (hn : ∀ k n, orbnum k = some n → -2147483648 ≤ n ∧ n ≤ 2147483647) :
    calcJReport T orbtype orbnum = T.calcJReport orbtype orbnum := by
  have hat : ∀ {k n}, mapAt orbnum k = .ok n → -2147483648 ≤ n ∧ n ≤ 2147483647 := by
    intro k n h
    unfold mapAt at h
    split at h
    · rename_i v hv
      cases h
      exact hn k _ hv
    · cases h
  unfold calcJReport TransferComplex.calcJReport
  refine bind_eq rfl fun d1 e1 => bind_eq rfl fun d2 e2 => bind_eq rfl fun k1 _ => bind_eq rfl fun n1 en1 => ?_
  refine bind_eq (selectRow_eq h1.sized o1.1 o1.2.1 o1.2.2 k1 (hat en1)) fun r1 er1 => ?_
  have q1 := selectRow_dims er1
  rw [h1.2.2.2.2] at q1
  have w1 : Within r1 := .of q1 (by omega) (by omega) h1.2.2.1 h1.2.2.2.1
  refine bind_eq (assign_eq (Within.default e1).sized w1.sized) fun m1 em1 => ?_
  refine bind_eq rfl fun k2 _ => bind_eq rfl fun n2 en2 => ?_
  refine bind_eq (selectRow_eq h2.sized o2.1 o2.2.1 o2.2.2 k2 (hat en2)) fun r2 er2 => ?_
  have q2 := selectRow_dims er2
  rw [h2.2.2.2.2] at q2
  have w2 : Within r2 := .of q2 (by omega) (by omega) h2.2.2.1 h2.2.2.2.1
  refine bind_eq (assign_eq (Within.default e2).sized w2.sized) fun m2 em2 => ?_
  refine transferReport_eq T.cp (w1.assign em1) (w2.assign em2) hP hS hE fun hcp => ?_
  rw [(assign_dims em1).2.1, (assign_dims em2).2.1, q1.2.1, q2.2.1]
  exact fit hcp

/-- C113: the limit is sharp. With 46341 orbital energies or more, the square matrix they are made into no longer has an `int`
number of elements, though the energies themselves are stored without trouble. -/
theorem C113_limit [Zero α] {m : Mat α} {n : Int} {E : Int → α} (h : VectorOf m n E) (hn : 46341 ≤ n) (hn' : n < 2147483647) :
    IntSized m ∧ diag m = .ub ∧ ∃ d, m.diag = .ok d := by
  have big : 2147483647 < n * n := by
    have : 46341 * 46341 ≤ n * n := Int.mul_le_mul hn hn (by omega) (by omega)
    omega
  have hub := (C113_constructor (α := α) n n 1).2.2.1 (by omega) (by omega) big
  refine ⟨?_, ?_, ?_⟩
  · rcases h with h | h
    · refine ⟨by rw [h.rows]; omega, by rw [h.cols], by rw [h.shel], ?_⟩
      rw [h.rows, h.cols, h.shel]; omega
    · refine ⟨by rw [h.rows], by rw [h.cols]; omega, by rw [h.shel], ?_⟩
      rw [h.rows, h.cols, h.shel]; omega
  · unfold diag
    rcases h with h | h
    · rw [if_neg (by rw [h.cols]; omega), if_neg (by rw [h.shel]; omega), if_neg (by rw [h.rows, h.cols]; omega), h.rows, hub]
      rfl
    · rw [if_neg (by rw [h.rows]; omega), if_neg (by rw [h.shel]; omega), if_pos (by rw [h.rows, h.cols]; omega), h.cols, hub]
      rfl
  · obtain ⟨-, d, e, -⟩ := h.diag
    exact ⟨d, e⟩

/-- Matrices at the limit exist: 46340 rows and columns. -/
example : ∃ m : Mat Rat, Mat.mk2 46340 46340 = .ok m ∧ Within m := by
  obtain ⟨m, e, -⟩ := mk2_isMat (α := Rat) (r := 46340) (c := 46340) (by omega) (by omega)
  exact ⟨m, e, .of (mk2_dims e).2.2 (by omega) (by omega) (by omega) (by omega)⟩

/-- The example of C35 is within the limit, and so is any of its requests. -/
example : Within exMon1 ∧ Within exMon2 ∧ Within exDimer ∧ Within exS ∧ Within exOE ∧ exMon1.cols + exMon2.cols ≤ 46340 := by
  unfold Within; decide +kernel

/-- A vector past the limit exists. -/
example : ∃ m : Mat Rat, VectorOf m 46341 (fun _ => 0) := by
  obtain ⟨m, e, h⟩ := mk2_isMat (α := Rat) (r := 46341) (c := 1) (by omega) (by omega)
  exact ⟨m, .inl (IsMat.values h (by omega) (by omega))⟩

end Verif.Ints
