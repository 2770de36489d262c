import Verif.Spec.Depends
import Verif.Props.Rounding
import Verif.Props.Symmetry
import Verif.Props.Bits
/-
C149: the monomers exchanged, in the machine's arithmetic.
-/
namespace Verif
open Strings Readers QC Mat Log Pun Job Args Machine

section
variable {α : Type} [Zero α] [One α] [Add α] [Sub α] [Mul α] [Div α]

theorem dot_comm' (hm : ∀ a b : α, a * b = b * a) (n : Int) (a b : Int → α) : Machine.dot n a b = Machine.dot n b a := by
  unfold Machine.dot
  congr 1
  funext k
  exact hm _ _

/-- C149 (with counterpoise): if the machine's multiplication and addition are commutative, exchanging the monomers exchanges the two energies and leaves the
overlap, bit for bit; and the effective coupling is computed in the same way from J_ab. -/
theorem C149_swap (hm : ∀ a b : α, a * b = b * a) (ha : ∀ a b : α, a + b = b + a) {coef1 coef2 coefP S oe : Mat α} {n1 n2 M N K : Int} {u v : Int → α}
    {C s : Int → Int → α} {E : Int → α} (h1 : Values coef1 1 n1 (fun _ j => u j)) (h2 : Values coef2 1 n2 (fun _ j => v j)) (hP : Values coefP M N C)
    (hS : Values S K N s) (hE : VectorOf oe M E) (hc : Conforming true n1 n2 K) :
    ∃ r r', transferReport coef1 coef2 coefP S oe true = .ok r ∧ transferReport coef2 coef1 coefP S oe true = .ok r' ∧
      r'.ea = r.eb ∧ r'.eb = r.ea ∧ r'.sab = r.sab ∧ (r'.jab = r.jab → r' = exchange r) := by
  have hc' : Conforming true n2 n1 K := by unfold Conforming at *; simp only [if_true] at *; exact ⟨hc.2, hc.1⟩
  have hs := dot_comm' hm M (Machine.proj K N (zetaA true n1 u) s C) (Machine.proj K N (zetaB true n1 v) s C)
  refine ⟨_, _, C99_report h1 h2 hP hS hE hc, C99_report h2 h1 hP hS hE hc', rfl, rfl, hs, fun hj => ?_⟩
  have hA : zetaB true n2 u = zetaA true n1 u := rfl
  have hB : zetaA true n2 v = zetaB true n1 v := rfl
  unfold Machine.report exchange at *
  dsimp only at *
  rw [hA, hB] at hj ⊢
  rw [hj, ← hs]
  congr 1
  rw [ha (Machine.dot M _ _)]

/-- C149 (with counterpoise): if multiplication is associative as well, and zeros are neutral, everything is exchanged; distributivity and associativity of the
addition are not needed. -/
theorem C149_assoc [Neg α] [SignLaws α] (hm : ∀ a b : α, a * b = b * a) (ha : ∀ a b : α, a + b = b + a) (hmm : ∀ a b c : α, a * b * c = a * (b * c))
    {coef1 coef2 coefP S oe : Mat α} {n1 n2 M N K : Int} {u v : Int → α}
    {C s : Int → Int → α} {E : Int → α} (h1 : Values coef1 1 n1 (fun _ j => u j)) (h2 : Values coef2 1 n2 (fun _ j => v j)) (hP : Values coefP M N C)
    (hS : Values S K N s) (hE : VectorOf oe M E) (hc : Conforming true n1 n2 K) :
    ∃ r, transferReport coef1 coef2 coefP S oe true = .ok r ∧ transferReport coef2 coef1 coefP S oe true = .ok (exchange r) := by
  obtain ⟨r, r', e, e', -, -, -, k⟩ := C149_swap hm ha h1 h2 hP hS hE hc
  have hc' : Conforming true n2 n1 K := by unfold Conforming at *; simp only [if_true] at *; exact ⟨hc.2, hc.1⟩
  refine ⟨r, e, ?_⟩
  rw [e', k ?_]
  have f := C99_report h1 h2 hP hS hE hc
  have f' := C99_report h2 h1 hP hS hE hc'
  rw [e] at f
  rw [e'] at f'
  rw [Res.ok.inj f, Res.ok.inj f']
  show Machine.dot M (Machine.proj K N (zetaB true n2 u) s C) (weighted M E (Machine.proj K N (zetaA true n2 v) s C)) =
    Machine.dot M (Machine.proj K N (zetaB true n1 v) s C) (weighted M E (Machine.proj K N (zetaA true n1 u) s C))
  have hA : zetaB true n2 u = zetaA true n1 u := rfl
  have hB : zetaA true n2 v = zetaB true n1 v := rfl
  rw [hA, hB]
  generalize Machine.proj K N (zetaA true n1 u) s C = g
  generalize Machine.proj K N (zetaB true n1 v) s C = h
  unfold Machine.dot
  refine sum_congr _ fun k k1 k2 => ?_
  rw [weighted_eq E h k1 (by omega), weighted_eq E g k1 (by omega), ← hmm, hm (g k), hmm, hm (g k), ← hmm, hm (E k), hmm]

end

section
variable {α K : Type} [Zero α] [One α] [Add α] [Sub α] [Mul α] [Div α] [Field K] [LinearOrder K] [IsStrictOrderedRing K] {e : K} {val : α → K}

omit [Zero α] [One α] [Add α] [Sub α] [Mul α] [Div α] [LinearOrder K] [IsStrictOrderedRing K] in
theorem overlap_comm' (M : Int) (a b : Int → K) : overlapAB M a b = overlapAB M b a := Finset.sum_congr rfl fun m _ => by ring

omit [Zero α] [One α] [Add α] [Sub α] [Mul α] [Div α] [LinearOrder K] [IsStrictOrderedRing K] in
theorem couplingJ_comm' (M : Int) (a b E : Int → K) : couplingJ M a b E = couplingJ M b a E := Finset.sum_congr rfl fun m _ => by ring

omit [Zero α] [One α] [Add α] [Sub α] [Mul α] [Div α] [IsStrictOrderedRing K] in
/-- Accuracy for the exchanged monomers, in a basis in which the projections are the same. -/
theorem accurate_exchange {r : Report α} {P N M : Int} {zA zB zA' zB' : Int → K} {s C s' C' : Int → Int → K} {E : Int → K}
    (h : Accurate e val r P N M zA zB s C E) (eA : QC.proj P N zB' s' C' = QC.proj P N zA s C) (eB : QC.proj P N zA' s' C' = QC.proj P N zB s C)
    (fA : QC.proj P N (size1 zB') (size2 s') (size2 C') = QC.proj P N (size1 zA) (size2 s) (size2 C))
    (fB : QC.proj P N (size1 zA') (size2 s') (size2 C') = QC.proj P N (size1 zB) (size2 s) (size2 C)) :
    Accurate e val (exchange r) P N M zA' zB' s' C' E := by
  refine ⟨?_, ?_, ?_, ?_, ?_⟩
  · show |val r.jab - _| ≤ _
    rw [eA, eB, fA, fB, couplingJ_comm' M (QC.proj P N zB s C), couplingJ_comm' M (QC.proj P N (size1 zB) (size2 s) (size2 C))]
    exact h.jab
  · show |val r.eb - _| ≤ _
    rw [eB, fB]
    exact h.eb
  · show |val r.ea - _| ≤ _
    rw [eA, fA]
    exact h.ea
  · show |val r.sab - _| ≤ _
    rw [eA, eB, fA, fB, overlap_comm' M (QC.proj P N zB s C), overlap_comm' M (QC.proj P N (size1 zB) (size2 s) (size2 C))]
    exact h.sab
  · intro gA gB aA aB Y dX dY d h1 h2 h3 h4 h5 h6 h7 h8 h9
    show |val r.jeff - _| ≤ _
    rw [QC.coupling_comm] at h9 ⊢
    refine h.jeff (h2.trans eA) (h1.trans eB) (h4.trans fA) (h3.trans fB) (h5.trans ?_) (h6.trans ?_) (h7.trans ?_) h8 h9
    · rw [overlap_comm' M gA]
    · rw [couplingJ_comm' M aA, overlap_comm' M aA, add_comm (siteEnergy M aA _)]
    · rw [overlap_comm' M aA]

omit [Zero α] [One α] [Add α] [Sub α] [Mul α] [Div α] [IsStrictOrderedRing K] in
theorem size_zetaA (cp : Bool) (n : Int) (u : Int → K) (hz : |(0 : K)| = 0) : size1 (zetaA cp n u) = zetaA cp n (size1 u) := by
  funext p; unfold size1 zetaA; split <;> [rfl; (split <;> [rfl; exact hz])]

omit [Zero α] [One α] [Add α] [Sub α] [Mul α] [Div α] [IsStrictOrderedRing K] in
theorem size_zetaB (cp : Bool) (n : Int) (u : Int → K) (hz : |(0 : K)| = 0) : size1 (zetaB cp n u) = zetaB cp n (size1 u) := by
  funext p; unfold size1 zetaB; split <;> [rfl; (split <;> [exact hz; rfl])]

omit [Zero α] [One α] [Add α] [Sub α] [Mul α] [Div α] [LinearOrder K] [IsStrictOrderedRing K] in
/-- Exchanging the blocks of the basis with the monomers leaves the projections. -/
theorem proj_blocks {n1 n2 : Int} (h1 : 1 ≤ n1) (h2 : 1 ≤ n2) {π : Int → Int} (hπ : ∀ p, 1 ≤ p → p ≤ n1 + n2 → π p = blockSwap n1 n2 p)
    (u v : Int → K) (s C : Int → Int → K) :
    QC.proj (n1 + n2) (n1 + n2) (zetaB false n2 u) (fun p q => s (π p) (π q)) (fun m q => C m (π q)) = QC.proj (n1 + n2) (n1 + n2) (zetaA false n1 u) s C ∧
    QC.proj (n1 + n2) (n1 + n2) (zetaA false n2 v) (fun p q => s (π p) (π q)) (fun m q => C m (π q)) = QC.proj (n1 + n2) (n1 + n2) (zetaB false n1 v) s C := by
  have hb := blockSwap_relabelling h1 h2
  have hr : Relabelling (n1 + n2) π := by
    constructor
    · intro p a b; rw [hπ p a b]; exact hb.maps p a b
    · intro p q a b c d h; rw [hπ p a b, hπ q c d] at h; exact hb.inj p q a b c d h
  constructor <;> funext m <;> refine proj_relabel hr _ _ s C (fun p p1 p2 => ?_) m <;> rw [hπ p p1 p2] <;>
    simp only [zetaA, zetaB, blockSwap, Bool.false_eq_true, if_false]
  · by_cases hp : p ≤ n2
    · simp only [hp, if_true]; rw [if_neg (by omega)]
    · simp only [hp, if_false]; rw [if_pos (by omega)]
  · by_cases hp : p ≤ n2
    · simp only [hp, if_true]; rw [if_neg (by omega)]; congr 1; omega
    · simp only [hp, if_false]; rw [if_pos (by omega)]

/-- C149 (with rounding errors, counterpoise): the report of the exchanged monomers, exchanged back, is as accurate as the report itself. -/
theorem C149_report_cp (R : Rounds e val) {coef1 coef2 coefP S oe : Mat α}
    {n1 n2 M N P : Int} {u v : Int → α} {C s : Int → Int → α} {E : Int → α}
    (h1 : Values coef1 1 n1 (fun _ j => u j)) (h2 : Values coef2 1 n2 (fun _ j => v j)) (hP : Values coefP M N C)
    (hS : Values S P N s) (hE : VectorOf oe M E) (hc : Conforming true n1 n2 P) :
    ∃ r', transferReport coef2 coef1 coefP S oe true = .ok r' ∧
      Accurate e val (exchange r') P N M (zetaA true n1 fun p => val (u p)) (zetaB true n1 fun p => val (v p)) (fun p q => val (s p q)) (fun p q => val (C p q))
        (fun m => val (E m)) := by
  have hc' : Conforming true n2 n1 P := by unfold Conforming at *; simp only [if_true] at *; exact ⟨hc.2, hc.1⟩
  obtain ⟨r', h, k⟩ := C105_report R h2 h1 hP hS hE hc'
  exact ⟨r', h, accurate_exchange k rfl rfl rfl rfl⟩

/-- C149 (with rounding errors, no counterpoise): the blocks of the basis are exchanged with the monomers. -/
theorem C149_report (R : Rounds e val) {coef1 coef2 oe coefP' S' : Mat α}
    {n1 n2 M : Int} {u v : Int → α} {C s : Int → Int → α} {E : Int → α}
    (h1 : Values coef1 1 n1 (fun _ j => u j)) (h2 : Values coef2 1 n2 (fun _ j => v j)) (hE : VectorOf oe M E)
    (hP' : Values coefP' M (n1 + n2) (fun m q => C m (blockSwap n1 n2 q)))
    (hS' : Values S' (n1 + n2) (n1 + n2) (fun p q => s (blockSwap n1 n2 p) (blockSwap n1 n2 q))) :
    ∃ r', transferReport coef2 coef1 coefP' S' oe false = .ok r' ∧
      Accurate e val (exchange r') (n1 + n2) (n1 + n2) M (zetaA false n1 fun p => val (u p)) (zetaB false n1 fun p => val (v p)) (fun p q => val (s p q))
        (fun p q => val (C p q)) (fun m => val (E m)) := by
  have p1 : 1 ≤ n1 := h1.pos.2
  have p2 : 1 ≤ n2 := h2.pos.2
  obtain ⟨r', h, k⟩ := C105_report R h2 h1 hP' hS' hE (show Conforming false n2 n1 (n1 + n2) from add_comm _ _)
  have a := proj_blocks p1 p2 (π := blockSwap n1 n2) (fun _ _ _ => rfl) (fun p => val (u p)) (fun p => val (v p)) (fun p q => val (s p q)) (fun p q => val (C p q))
  have b := proj_blocks p1 p2 (π := blockSwap n1 n2) (fun _ _ _ => rfl) (size1 fun p => val (u p)) (size1 fun p => val (v p)) (size2 fun p q => val (s p q))
    (size2 fun p q => val (C p q))
  refine ⟨r', h, accurate_exchange k a.2.symm a.1.symm ?_ ?_⟩
  · rw [size_zetaB _ _ _ abs_zero, size_zetaA _ _ _ abs_zero]; exact b.2.symm
  · rw [size_zetaB _ _ _ abs_zero, size_zetaA _ _ _ abs_zero]; exact b.1.symm

end
end Verif
