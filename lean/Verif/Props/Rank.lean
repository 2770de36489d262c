import Verif.QCTransfer
import Verif.Props.MatrixB
/-
Property C41: findRank.
-/
namespace Verif.QC
open Verif.Mat
variable {α : Type}

private theorem rankCol_ok {m : Mat α} {n : Int} {f : Int → Int → α} (h : IsMat m n 1 1 (fun i j _ => f i j)) (hn : 0 ≤ n) (sp : Spin) :
    rankCol m sp = .ok ((irange 1 n).map (fun i => (f i 1, sp))) := by
  unfold rankCol
  rw [h.rows]
  obtain ⟨l, e, hl⟩ := forRange_inv (lo := 1) (hi := n) (σ := List (α × Spin))
    (body := fun acc ind => do let v ← m.getElem1 ind; .ok (acc ++ [(v, sp)]))
    (fun k l => l = (irange 1 (k - 1)).map (fun i => (f i 1, sp))) (by omega)
    (by
      intro i s i1 i2 hs
      refine ⟨_, by rw [h.get1 (by omega) (by omega) i1 i2]; rfl, ?_⟩
      have e : i + 1 - 1 = i - 1 + 1 := by omega
      rw [e, irange_succ (by omega), List.map_append, ← hs]
      simp)
    (s := []) (by rw [irange_empty (by omega)]; rfl)
  rw [e, hl]
  congr 2
  congr 1; omega

/-- C41 (refuted): a column of two or more alpha energies - the only shape the readers produce - terminates the process,
whatever the beta energies and the sorting routine are. -/
theorem C41_refuted [Zero α] (sort : List (α × Spin) → List (α × Spin)) {a b : Mat α} {n : Int} {f : Int → Int → α}
    (ha : Values a n 1 f) (hn : 2 ≤ n) : findRank sort a b = .exit 1 := by
  unfold findRank findRankAll
  rw [C21_refuted_tall ha.wf (by rw [ha.cols, ha.rows]; omega) 1 (by rw [ha.cols]; omega)]
  rfl

/-- C41 (refuted for the beta column as well). -/
theorem C41_refuted_beta [Zero α] (sort : List (α × Spin) → List (α × Spin)) {a b : Mat α} {k n : Int} {f g : Int → Int → α}
    (ha : Values a k k f) (hb : Values b n 1 g) (hn : 2 ≤ n) : findRank sort a b = .exit 1 := by
  obtain ⟨p1, -⟩ := ha.pos
  obtain ⟨ma, ea, hma⟩ := getCol_isMat ha.isMat p1 (by omega) (le_refl k) (C := 1) (by omega) p1
  unfold findRank findRankAll
  rw [ea]; simp only [Res.ok_bind]
  rw [rankCol_ok (f := fun i _ => if i ≤ k then f i 1 else 0) hma (by omega), hb.cols]; simp only [Res.ok_bind]
  rw [if_pos (by omega), C21_refuted_tall hb.wf (by rw [hb.cols, hb.rows]; omega) 1 (by rw [hb.cols]; omega)]
  rfl

/-- C41 (partial): on square matrices (in particular on a single energy) the ranks list every entry of the first columns
with its spin, in ascending order. `sort` may be any sorting routine for the comparison used. Missing: columns of
length ≥ 2, where the claim is false. -/
theorem C41_rank_partial [Zero α] [LT α] (sort : List (α × Spin) → List (α × Spin))
    (hsort : ∀ l, (sort l).Perm l ∧ (sort l).Pairwise (fun p q => ¬ q.1 < p.1))
    {a b : Mat α} {k n : Int} {f g : Int → Int → α}
    (ha : Values a k k f) (hb : Values b n n g ∨ (b.cols ≤ 0 ∧ n = 0)) :
    ∃ l, findRank sort a b = .ok l ∧ l.Pairwise (fun p q => ¬ q.1 < p.1) ∧
      l.Perm ((irange 1 k).map (fun i => (f i 1, Spin.alpha)) ++ (irange 1 n).map (fun i => (g i 1, Spin.beta))) ∧
      (l.length : Int) = k + n := by
  obtain ⟨p1, -⟩ := ha.pos
  obtain ⟨ma, ea, hma⟩ := getCol_isMat ha.isMat p1 (by omega) (le_refl k) (C := 1) (by omega) p1
  have r1 := rankCol_ok (f := fun i _ => if i ≤ k then f i 1 else 0) hma (by omega) .alpha
  have e1 : (irange 1 k).map (fun i => (if i ≤ k then f i 1 else 0, Spin.alpha)) = (irange 1 k).map (fun i => (f i 1, Spin.alpha)) := by
    apply List.map_congr_left
    intro i hi
    rw [if_pos (mem_irange.1 hi).2]
  rw [e1] at r1
  have hall : findRankAll a b = .ok ((irange 1 k).map (fun i => (f i 1, Spin.alpha)) ++ (irange 1 n).map (fun i => (g i 1, Spin.beta))) := by
    unfold findRankAll
    rw [ea]; simp only [Res.ok_bind]
    rw [r1]; simp only [Res.ok_bind]
    rcases hb with hb | ⟨hb, rfl⟩
    · obtain ⟨q1, -⟩ := hb.pos
      obtain ⟨mb, eb, hmb⟩ := getCol_isMat hb.isMat q1 (by omega) (le_refl n) (C := 1) (by omega) q1
      have r2 := rankCol_ok (f := fun i _ => if i ≤ n then g i 1 else 0) hmb (by omega) .beta
      have e2 : (irange 1 n).map (fun i => (if i ≤ n then g i 1 else 0, Spin.beta)) = (irange 1 n).map (fun i => (g i 1, Spin.beta)) := by
        apply List.map_congr_left
        intro i hi
        rw [if_pos (mem_irange.1 hi).2]
      rw [e2] at r2
      rw [if_pos (by rw [hb.cols]; omega), eb]; simp only [Res.ok_bind]
      rw [r2]; rfl
    · rw [if_neg (by omega), irange_empty (lo := 1) (hi := 0) (by omega)]; simp
  refine ⟨_, by unfold findRank; rw [hall]; rfl, (hsort _).2, (hsort _).1, ?_⟩
  rw [(hsort _).1.length_eq]
  have : 0 ≤ n := by
    rcases hb with hb | ⟨_, rfl⟩
    · have := hb.pos; omega
    · omega
  simp
  omega

/-- One alpha and one beta energy: the hypotheses are satisfiable, and the lower (beta) one ranks first. -/
example : findRank (fun l => l.insertionSort (fun p q => p.1 ≤ q.1)) (⟨1, 1, 1, [some (3 : Int)]⟩) ⟨1, 1, 1, [some (-2)]⟩
    = .ok [(-2, Spin.beta), (3, Spin.alpha)] := by decide

/-- What findRank takes from a matrix: one entry for every column, the first of them being the first column of the
matrix, the others 0. -/
def FirstColumn [Zero α] (m : Mat α) (sp : Spin) (l : List (α × Spin)) : Prop :=
  (l.length : Int) = m.cols ∧
  (∀ n : Nat, (n : Int) < m.rows → ∃ x, m.getElem2 (n + 1) 1 = .ok x ∧ l[n]? = some (x, sp)) ∧
  ∀ n : Nat, m.rows ≤ (n : Int) → (n : Int) < m.cols → l[n]? = some (0, sp)

private theorem firstColumn [Zero α] {m : Mat α} (h : WF m) (hrc : m.rows ≤ m.cols) (sp : Spin) :
    ∃ mc l, m.getCol 1 = .ok mc ∧ rankCol mc sp = .ok l ∧ FirstColumn m sp l := by
  obtain ⟨f, hf⟩ := h.exists_isMat
  obtain ⟨mc, e, hm⟩ := getCol_isMat hf h.cols1 h.shel1 hrc (C := 1) (by omega) h.cols1
  have hr : rankCol mc sp = .ok ((irange 1 m.cols).map (fun i => ((if i ≤ m.rows then f i 1 1 else 0), sp))) := by
    unfold rankCol
    rw [hm.rows]
    have hc1 := h.cols1
    have hs1 := h.shel1
    obtain ⟨l, e, hl⟩ := forRange_inv (lo := 1) (hi := m.cols) (σ := List (α × Spin))
      (body := fun acc ind => do let v ← mc.getElem1 ind; .ok (acc ++ [(v, sp)]))
      (fun k l => l = (irange 1 (k - 1)).map (fun i => ((if i ≤ m.rows then f i 1 1 else 0), sp))) (by omega)
      (by
        intro i s i1 i2 hs
        refine ⟨_, by rw [hm.get1 (by omega) (by omega) i1 i2]; rfl, ?_⟩
        have e : i + 1 - 1 = i - 1 + 1 := by omega
        rw [e, irange_succ (by omega), List.map_append, ← hs]
        simp)
      (s := []) (by rw [irange_empty (by omega)]; rfl)
    rw [e, hl]
    congr 2
    congr 1; omega
  refine ⟨mc, _, e, hr, ?_, ?_, ?_⟩
  · have := h.cols1; simp; omega
  · intro n hn
    have hs1 := h.shel1
    refine ⟨f (n + 1) 1 1, hf.get2 (by omega) (by omega) (by omega) (by omega) h.cols1, ?_⟩
    rw [List.getElem?_map, List.getElem?_eq_getElem (by simp; omega), getElem_irange, Option.map_some,
      if_pos (by omega)]
    rw [show (1 : Int) + (n : Int) = n + 1 by omega]
  · intro n h1 h2
    rw [List.getElem?_map, List.getElem?_eq_getElem (by simp; omega), getElem_irange, Option.map_some,
      if_neg (by omega)]

/-- C109: findRank on every shape. A matrix with more rows than columns ends the process; otherwise the result lists, in
ascending order, the entries of the first columns with their spins, and a 0 for every column a matrix has more than
rows. -/
theorem C109_rank [Zero α] [LT α] (sort : List (α × Spin) → List (α × Spin))
    (hsort : ∀ l, (sort l).Perm l ∧ (sort l).Pairwise (fun p q => ¬ q.1 < p.1)) {a b : Mat α} (ha : WF a) (hb : WF b) :
    ((a.cols < a.rows ∨ b.cols < b.rows) ∧ findRank sort a b = .exit 1) ∨
    (a.rows ≤ a.cols ∧ b.rows ≤ b.cols ∧ ∃ l la lb, findRank sort a b = .ok l ∧ l.Pairwise (fun p q => ¬ q.1 < p.1) ∧
      l.Perm (la ++ lb) ∧ FirstColumn a .alpha la ∧ FirstColumn b .beta lb) := by
  by_cases hac : a.cols < a.rows
  · refine Or.inl ⟨Or.inl hac, ?_⟩
    unfold findRank findRankAll
    rw [C21_refuted_tall ha hac 1 ⟨by omega, ha.cols1⟩]
    rfl
  obtain ⟨ma, la, ea, ra, fa⟩ := firstColumn ha (by omega) .alpha
  have hbc := hb.cols1
  by_cases hbr : b.cols < b.rows
  · refine Or.inl ⟨Or.inr hbr, ?_⟩
    unfold findRank findRankAll
    rw [ea]; simp only [Res.ok_bind]
    rw [ra]; simp only [Res.ok_bind]
    rw [if_pos (by omega), C21_refuted_tall hb hbr 1 ⟨by omega, hb.cols1⟩]
    rfl
  obtain ⟨mb, lb, eb, rb, fb⟩ := firstColumn hb (by omega) .beta
  refine Or.inr ⟨by omega, by omega, sort (la ++ lb), la, lb, ?_, (hsort _).2, (hsort _).1, fa, fb⟩
  unfold findRank findRankAll
  rw [ea]; simp only [Res.ok_bind]
  rw [ra]; simp only [Res.ok_bind]
  rw [if_pos (by omega), eb]; simp only [Res.ok_bind]
  rw [rb]; rfl

/-- C109, no beta energies (`Matrix(0)`): the same with the alpha entries only. -/
theorem C109_rank_alpha [Zero α] [LT α] (sort : List (α × Spin) → List (α × Spin))
    (hsort : ∀ l, (sort l).Perm l ∧ (sort l).Pairwise (fun p q => ¬ q.1 < p.1)) {a b : Mat α} (ha : WF a) (hb : b.cols ≤ 0) :
    (a.cols < a.rows ∧ findRank sort a b = .exit 1) ∨
    (a.rows ≤ a.cols ∧ ∃ l la, findRank sort a b = .ok l ∧ l.Pairwise (fun p q => ¬ q.1 < p.1) ∧
      l.Perm la ∧ FirstColumn a .alpha la) := by
  by_cases hac : a.cols < a.rows
  · refine Or.inl ⟨hac, ?_⟩
    unfold findRank findRankAll
    rw [C21_refuted_tall ha hac 1 ⟨by omega, ha.cols1⟩]
    rfl
  obtain ⟨ma, la, ea, ra, fa⟩ := firstColumn ha (by omega) .alpha
  refine Or.inr ⟨by omega, sort la, la, ?_, (hsort _).2, (hsort _).1, fa⟩
  unfold findRank findRankAll
  rw [ea]; simp only [Res.ok_bind]
  rw [ra]; simp only [Res.ok_bind]
  rw [if_neg (by omega)]; rfl

/-- A row of three energies is ranked as its first entry and two zeros. -/
example : findRank (fun l => l.insertionSort (fun p q => p.1 ≤ q.1)) (⟨1, 3, 1, [some (3 : Int), some 8, some 9]⟩) ⟨1, 1, 1, [some (-2)]⟩
    = .ok [(-2, Spin.beta), (0, Spin.alpha), (0, Spin.alpha), (3, Spin.alpha)] := by decide

end Verif.QC
