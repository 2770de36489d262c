import Verif.Props.MatrixB
import Verif.Sum
/-
Property C10: the matrix product.
-/
namespace Verif.Mat
variable {α : Type}

/-- C10 (floating-point shape): whatever `+` and `*` are, entry `(i,j)` is
`((0 + a₁b₁) + a₂b₂) + ...` accumulated from the first to the last inner index. -/
theorem C10_product_order [Zero α] [Add α] [Mul α] {A B : Mat α} (hA : WF A) (hB : WF B) (sA : A.shel = 1)
    (sB : B.shel = 1) (hc : A.cols = B.rows) (a b : Int → Int → α)
    (ha : ∀ i k, 1 ≤ i → i ≤ A.rows → 1 ≤ k → k ≤ A.cols → A.getElem2 i k = .ok (a i k))
    (hb : ∀ k j, 1 ≤ k → k ≤ B.rows → 1 ≤ j → j ≤ B.cols → B.getElem2 k j = .ok (b k j)) :
    ∃ P, A.mul B = .ok P ∧ WF P ∧ P.rows = A.rows ∧ P.cols = B.cols ∧ P.shel = 1 ∧
      ∀ i j, 1 ≤ i → i ≤ A.rows → 1 ≤ j → j ≤ B.cols →
        P.getElem2 i j = .ok ((irange 1 A.cols).foldl (fun acc k => acc + a i k * b k j) 0) := by
  obtain ⟨f, hf⟩ := hA.exists_isMat
  obtain ⟨g, hg⟩ := hB.exists_isMat
  rw [sA] at hf
  rw [sB, ← hc] at hg
  obtain ⟨P, e, hP⟩ := mul_isMat hf hg hA.rows1 hB.cols1
  refine ⟨P, e, hP.wf hA.rows1 hB.cols1 (by omega), hP.rows, hP.cols, hP.shel, ?_⟩
  intro i j h1 h2 h3 h4
  rw [hP.get2 (by omega) h1 h2 h3 h4]
  unfold seqSum
  congr 1
  have : ∀ (L : List Int) (z : α), (∀ k ∈ L, 1 ≤ k ∧ k ≤ A.cols) →
      L.foldl (fun s k => s + f i k 1 * g k j 1) z = L.foldl (fun s k => s + a i k * b k j) z := by
    intro L
    induction L with
    | nil => intro z _; rfl
    | cons x L ih =>
      intro z hL
      obtain ⟨x1, x2⟩ := hL x (by simp)
      have e1 := ha i x h1 h2 x1 x2
      rw [hf.get2 (by omega) h1 h2 x1 x2] at e1
      have e2 := hb x j x1 (by omega) h3 h4
      rw [hg.get2 (by omega) x1 x2 h3 h4] at e2
      simp only [List.foldl_cons, Res.ok.inj e1, Res.ok.inj e2]
      exact ih _ (fun k hk => hL k (by simp [hk]))
  exact this _ _ (fun k hk => mem_irange.1 hk)

/-- C10: in exact arithmetic entry `(i,j)` of `A*B` is `∑ₖ A(i,k) B(k,j)`. -/
theorem C10_product [NonUnitalNonAssocSemiring α] {A B : Mat α} (hA : WF A) (hB : WF B) (sA : A.shel = 1)
    (sB : B.shel = 1) (hc : A.cols = B.rows) (a b : Int → Int → α)
    (ha : ∀ i k, 1 ≤ i → i ≤ A.rows → 1 ≤ k → k ≤ A.cols → A.getElem2 i k = .ok (a i k))
    (hb : ∀ k j, 1 ≤ k → k ≤ B.rows → 1 ≤ j → j ≤ B.cols → B.getElem2 k j = .ok (b k j)) :
    ∃ P, A.mul B = .ok P ∧ WF P ∧ P.rows = A.rows ∧ P.cols = B.cols ∧ P.shel = 1 ∧
      ∀ i j, 1 ≤ i → i ≤ A.rows → 1 ≤ j → j ≤ B.cols →
        P.getElem2 i j = .ok (∑ k ∈ Finset.Icc 1 A.cols, a i k * b k j) := by
  obtain ⟨P, e, h1, h2, h3, h4, h5⟩ := C10_product_order hA hB sA sB hc a b ha hb
  refine ⟨P, e, h1, h2, h3, h4, fun i j a1 a2 a3 a4 => ?_⟩
  rw [h5 i j a1 a2 a3 a4, ← seqSum_eq_sum]
  rfl

/-- C10 (refusal): non-conforming or multi-shelf operands end the process with status 1. -/
theorem C10_refused [Zero α] [Add α] [Mul α] (A B : Mat α)
    (h : A.shel ≠ 1 ∨ B.shel ≠ 1 ∨ A.cols ≠ B.rows) : A.mul B = .exit 1 := by
  unfold mul
  by_cases h1 : A.shel ≠ 1 ∨ B.shel ≠ 1
  · rw [if_pos h1]
  · rw [if_neg h1, if_pos (by tauto)]

/-- C10 (associativity): the two bracketings build the same matrix. -/
theorem C10_assoc [NonUnitalSemiring α] {A B C : Mat α} (hA : WF A) (hB : WF B) (hC : WF C) (sA : A.shel = 1)
    (sB : B.shel = 1) (sC : C.shel = 1) (h1 : A.cols = B.rows) (h2 : B.cols = C.rows) :
    ∃ AB BC P, A.mul B = .ok AB ∧ B.mul C = .ok BC ∧ AB.mul C = .ok P ∧ A.mul BC = .ok P := by
  obtain ⟨f, hf⟩ := hA.exists_isMat
  obtain ⟨g, hg⟩ := hB.exists_isMat
  obtain ⟨k, hk⟩ := hC.exists_isMat
  rw [sA] at hf
  rw [sB, ← h1] at hg
  rw [sC, ← h2] at hk
  obtain ⟨AB, e1, m1⟩ := mul_isMat hf hg hA.rows1 hB.cols1
  obtain ⟨BC, e2, m2⟩ := mul_isMat hg hk (by have := hA.cols1; omega) hC.cols1
  obtain ⟨P, e3, m3⟩ := mul_isMat m1 hk hA.rows1 hC.cols1
  obtain ⟨Q, e4, m4⟩ := mul_isMat hf m2 hA.rows1 hC.cols1
  refine ⟨AB, BC, P, e1, e2, e3, ?_⟩
  rw [e4]
  refine congrArg Res.ok (m4.ext' m3 ?_)
  intro i j l _
  simp only [seqSum_eq_sum, Finset.sum_mul, Finset.mul_sum]
  rw [Finset.sum_comm]
  simp only [mul_assoc]

/-- C10 (transposition): `invert(A*B) = invert(B)*invert(A)` over a commutative semiring. -/
theorem C10_invert_mul [NonUnitalCommSemiring α] {A B : Mat α} (hA : WF A) (hB : WF B) (sA : A.shel = 1)
    (sB : B.shel = 1) (hc : A.cols = B.rows) :
    ∃ AB At Bt P, A.mul B = .ok AB ∧ A.invert = .ok At ∧ B.invert = .ok Bt ∧ AB.invert = .ok P ∧ Bt.mul At = .ok P := by
  obtain ⟨f, hf⟩ := hA.exists_isMat
  obtain ⟨g, hg⟩ := hB.exists_isMat
  rw [sA] at hf
  rw [sB, ← hc] at hg
  obtain ⟨AB, e1, m1⟩ := mul_isMat hf hg hA.rows1 hB.cols1
  obtain ⟨At, e2, m2⟩ := invert_isMat hf hA.rows1 hA.cols1
  obtain ⟨Bt, e3, m3⟩ := invert_isMat hg hA.cols1 hB.cols1
  obtain ⟨P, e4, m4⟩ := invert_isMat m1 hA.rows1 hB.cols1
  obtain ⟨Q, e5, m5⟩ := mul_isMat m3 m2 hB.cols1 hA.rows1
  refine ⟨AB, At, Bt, P, e1, e2, e3, e4, ?_⟩
  rw [e5]
  refine congrArg Res.ok (m5.ext' m4 ?_)
  intro i j l _
  simp only [seqSum_eq_sum, mul_comm]

example : WF ex23 ∧ ex23.shel = 1 := by decide
example : ex23.mul ⟨3, 1, 1, [some 1, some 10, some 100]⟩ = .ok ⟨2, 1, 1, [some 321, some 654]⟩ := by decide
example : ex23.mul ex23 = .exit 1 := by decide

end Verif.Mat
