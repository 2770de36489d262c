import Verif.Spec.Print
import Verif.Props.MatrixA
import Verif.Props.MatrixD
import Verif.Spec.Transfer
import Verif.QCTransfer
/-
C83: printing a matrix. C84: access through `get_elem_ptr`.
-/
namespace Verif.Mat
variable {α : Type}
open QC (Values)

theorem foldlM_append {body : Str → Int → Res Str} (f : Int → Str) (L : List Int) (h : ∀ s, ∀ i ∈ L, body s i = .ok (s ++ f i))
    (s : Str) : L.foldlM body s = .ok (s ++ L.flatMap f) := by
  induction L generalizing s with
  | nil => simp
  | cons i L ih =>
    rw [List.foldlM_cons, h s i (by simp), Res.ok_bind, ih (fun s j hj => h s j (by simp [hj]))]
    simp

theorem forRange_append {lo hi : Int} {body : Str → Int → Res Str} (f : Int → Str)
    (h : ∀ s i, lo ≤ i → i ≤ hi → body s i = .ok (s ++ f i)) (s : Str) :
    forRange lo hi s body = .ok (s ++ (irange lo hi).flatMap f) := by
  unfold forRange
  exact foldlM_append f _ (fun s i hi => h s i (mem_irange.1 hi).1 (mem_irange.1 hi).2) s

/-- What is printed: every shelf is printed with the elements of shelf 1. -/
theorem printText_eq (print : α → Str) {m : Mat α} {r c s f} (h : IsMat m r c s f) (hs : 1 ≤ s) :
    m.printText print = .ok (matrixText print r c s (fun i j _ => f i j 1)) := by
  unfold printText
  simp only [h.rows, h.cols, h.shel]
  rw [forRange_append (fun k => shelfBlock print r c (fun i j => f i j 1) k)]
  · simp [matrixText, List.append_assoc]
  · intro out k _ _
    rw [forRange_append (fun j => (lit "Col ") ++ intToStr j ++ (lit "\t")) (fun s i _ _ => by simp)]
    rw [Res.ok_bind]
    rw [forRange_append (fun i => rowLine print c (fun j => f i j 1) i)]
    · simp [shelfBlock, List.append_assoc]
    · intro out i i1 i2
      rw [forRange_append (fun j => print (f i j 1) ++ (lit "\t"))]
      · rw [Res.ok_bind]; simp [rowLine, List.append_assoc]
      · intro out j j1 j2
        rw [h.get2 hs i1 i2 j1 j2, Res.ok_bind, List.append_assoc]

/-- C83 (partial): a matrix with one shelf is printed completely: every element in its row and column. Missing: matrices with more
shelves (see `C83_refuted_shelves`). -/
theorem C83_one_shelf_partial (print : α → Str) {m : Mat α} {r c : Int} {f : Int → Int → α} (h : Values m r c f) :
    m.printText print = .ok (matrixText print r c 1 (fun i j _ => f i j)) := by
  rw [printText_eq print h.isMat (by omega)]

/-- C83 (first shelf): the text of any matrix is that of the matrix all of whose shelves are like the first. -/
theorem C83_always (print : α → Str) {m : Mat α} (h : WF m) : ∃ f : Int → Int → α, (∀ i j, 1 ≤ i → i ≤ m.rows → 1 ≤ j → j ≤ m.cols → m.getElem3 i j 1 = .ok (f i j)) ∧
    m.printText print = .ok (matrixText print m.rows m.cols m.shel (fun i j _ => f i j)) := by
  obtain ⟨f, hf⟩ := h.exists_isMat
  exact ⟨fun i j => f i j 1, fun i j i1 i2 j1 j2 => hf.get3 ⟨i1, i2, j1, j2, by omega, h.shel1⟩, by rw [printText_eq print hf h.shel1]⟩

/-- C83 (refuted): elements of shelves other than the first do not appear: changing one does not change the text. -/
theorem C83_refuted_shelves (print : α → Str) {m m' : Mat α} (h : WF m) (v : α) {r c s : Int} (hs : s ≠ 1)
    (hset : m.setElem3 v r c s = .ok m') : m'.printText print = m.printText print := by
  obtain ⟨f, hf⟩ := h.exists_isMat
  have hin : InR m.rows m.cols m.shel r c s := by
    by_contra hn
    unfold setElem3 at hset
    unfold InR at hn
    split at hset
    · cases hset
    · split at hset
      · cases hset
      · split at hset
        · cases hset
        · split at hset
          · cases hset
          · split at hset
            · cases hset
            · split at hset
              · cases hset
              · omega
  obtain ⟨m1, e1, h1⟩ := hf.set3 hin v
  rw [hset] at e1
  cases e1
  rw [printText_eq print hf h.shel1, printText_eq print h1 h.shel1]
  congr 2
  funext i j k
  unfold upd
  rw [if_neg (by omega)]

def twoShelves : Mat Int := ⟨1, 2, 2, [some 1, some 5, some 2, some 6]⟩
example : WF twoShelves ∧ twoShelves.setElem3 7 1 2 2 = .ok ⟨1, 2, 2, [some 1, some 5, some 2, some 7]⟩ := by decide
example : twoShelves.printText intToStr =
    .ok (lit "Matrix Attributes\nrows 1\ncols 2\nshel 2\nShelf 1\n\tCol 1\tCol 2\t\nRow 1\t1\t2\t\n\nShelf 2\n\tCol 1\tCol 2\t\nRow 1\t1\t2\t\n") := by
  decide +kernel
example : (⟨1, 2, 1, [some 1, some 2]⟩ : Mat Int).printText intToStr =
    .ok (lit "Matrix Attributes\nrows 1\ncols 2\nshel 1\nShelf 1\n\tCol 1\tCol 2\t\nRow 1\t1\t2\t\n") := by decide +kernel

/-! ### C84 -/

/-- C84 (partial): within the matrix, reading and writing through `get_elem_ptr(r, c)` is `get_elem(r, c)` and `set_elem(v, r, c)`.
Missing: coordinates outside are not rejected (see `C84_refuted`). -/
theorem C84_in_range_partial (m : Mat α) {r c : Int} (hr : 1 ≤ r ∧ r ≤ m.rows) (hc : 1 ≤ c ∧ c ≤ m.cols) (v : α) :
    m.readPtr r c = m.getElem2 r c ∧ m.writePtr v r c = m.setElem2 v r c := by
  unfold readPtr writePtr getElemPtr getElem2 setElem2
  constructor
  · rw [if_neg (by omega), if_neg (by omega), if_neg (by omega), if_neg (by omega)]
  · rw [if_neg (by omega), if_neg (by omega), if_neg (by omega), if_neg (by omega)]

/-- C84 (refuted): one column too far is the first column of the next row, where `get_elem` would end the program; and one row too far
is undefined behaviour. -/
theorem C84_refuted {m : Mat α} (h : WF m) {r : Int} (hr : 1 ≤ r ∧ r < m.rows) (v : α) :
    m.readPtr r (m.cols + 1) = m.getElem2 (r + 1) 1 ∧ m.writePtr v r (m.cols + 1) = m.setElem2 v (r + 1) 1 ∧
    m.getElem2 r (m.cols + 1) = .exit 1 ∧ m.setElem2 v r (m.cols + 1) = .exit 1 ∧
    m.readPtr (m.rows + 1) 1 = .ub ∧ m.writePtr v (m.rows + 1) 1 = .ub := by
  have hc := h.cols1
  have e : m.getElemPtr r (m.cols + 1) = m.getElemPtr (r + 1) 1 := by
    unfold getElemPtr index idx
    have : (r + 1 - 1) * m.cols = (r - 1) * m.cols + m.cols := by
      rw [show r + 1 - 1 = (r - 1) + 1 by omega, Int.add_mul, Int.one_mul]
    rw [this, Int.add_mul]
    simp
  have hp := C84_in_range_partial m (r := r + 1) (c := 1) ⟨by omega, by omega⟩ ⟨by omega, hc⟩ v
  have hend : m.getElemPtr (m.rows + 1) 1 = m.elem.length := by
    rw [h.size]
    unfold getElemPtr index idx
    simp
  refine ⟨?_, ?_, ?_, ?_, ?_, ?_⟩
  · rw [← hp.1]; unfold readPtr; rw [e]
  · rw [← hp.2]; unfold writePtr; rw [e]
  · unfold getElem2; rw [if_neg (by omega), if_neg (by omega), if_neg (by omega), if_pos (by omega)]
  · unfold setElem2; rw [if_neg (by omega), if_neg (by omega), if_pos (by omega)]
  · unfold readPtr Buf.read; rw [hend]; simp
  · unfold writePtr Buf.write; rw [hend]; simp

example : WF (⟨2, 2, 1, [some 1, some 2, some 3, some 4]⟩ : Mat Int) ∧ (⟨2, 2, 1, [some 1, some 2, some 3, some 4]⟩ : Mat Int).readPtr 1 3 = .ok 3 := by
  decide

/-- C84 (every `r` and `c`): `get_elem_ptr(r, c)` is the element `(r-1)*cols + (c-1)` places after the first, counted row by row: if the
matrix has that many elements (per shelf), reading and writing through the pointer is `get_elem` and `set_elem` of that element; if not,
it is undefined behaviour. -/
theorem C84_always {m : Mat α} (h : WF m) (r c : Int) (v : α) :
    (∀ i j : Int, 1 ≤ i → i ≤ m.rows → 1 ≤ j → j ≤ m.cols → (i - 1) * m.cols + (j - 1) = (r - 1) * m.cols + (c - 1) →
      m.readPtr r c = m.getElem2 i j ∧ m.writePtr v r c = m.setElem2 v i j) ∧
    (0 ≤ (r - 1) * m.cols + (c - 1) → (r - 1) * m.cols + (c - 1) < m.rows * m.cols →
      ∃ i j : Int, (1 ≤ i ∧ i ≤ m.rows ∧ 1 ≤ j ∧ j ≤ m.cols) ∧ (i - 1) * m.cols + (j - 1) = (r - 1) * m.cols + (c - 1)) ∧
    ((r - 1) * m.cols + (c - 1) < 0 ∨ m.rows * m.cols ≤ (r - 1) * m.cols + (c - 1) →
      m.readPtr r c = .ub ∧ m.writePtr v r c = .ub) := by
  have hc := h.cols1
  have hs := h.shel1
  have hidx : m.getElemPtr r c = ((r - 1) * m.cols + (c - 1)) * m.shel := by
    unfold getElemPtr index idx; simp [Int.add_mul]
  refine ⟨?_, ?_, ?_⟩
  · intro i j i1 i2 j1 j2 e
    have hp := C84_in_range_partial m ⟨i1, i2⟩ ⟨j1, j2⟩ v
    have hij : m.getElemPtr r c = m.getElemPtr i j := by
      rw [hidx, ← e]; unfold getElemPtr index idx; simp [Int.add_mul]
    rw [← hp.1, ← hp.2]
    unfold readPtr writePtr
    rw [hij]
    exact ⟨rfl, rfl⟩
  · intro p0 p1
    generalize (r - 1) * m.cols + (c - 1) = p at *
    refine ⟨p / m.cols + 1, p % m.cols + 1, ⟨?_, ?_, ?_, ?_⟩, ?_⟩
    · have := Int.ediv_nonneg p0 (show 0 ≤ m.cols by omega); omega
    · have := Int.ediv_lt_of_lt_mul (show 0 < m.cols by omega) p1; omega
    · have := Int.emod_nonneg p (show m.cols ≠ 0 by omega); omega
    · have := Int.emod_lt_of_pos p (show 0 < m.cols by omega); omega
    · have := Int.mul_ediv_add_emod p m.cols
      rw [Int.mul_comm] at this
      simpa using this
  · intro hout
    have hread : m.getElemPtr r c < 0 ∨ (m.elem.length : Int) ≤ m.getElemPtr r c := by
      rw [hidx, h.size]
      generalize (r - 1) * m.cols + (c - 1) = p at *
      rcases hout with hn | hn
      · left; exact Int.mul_neg_of_neg_of_pos hn (by omega)
      · right; exact Int.mul_le_mul_of_nonneg_right hn (by omega)
    exact ⟨by unfold readPtr; exact read_out hread, by unfold writePtr; rw [write_out v hread]; rfl⟩

/-- Row 3, column -1 of a 2×2 matrix is its third element; row 1, column 0 is outside. -/
example : (⟨2, 2, 1, [some 1, some 2, some 3, some 4]⟩ : Mat Int).readPtr 3 (-1) = .ok 3 ∧
    (⟨2, 2, 1, [some 1, some 2, some 3, some 4]⟩ : Mat Int).readPtr 1 0 = .ub := by decide

end Verif.Mat
