import Verif.Spec.Ghosts
import Verif.Props.RunErrors
import Verif.Props.Errors
/-
C150: counterpoise and plain calculation compared.
-/
namespace Verif
open Strings Readers QC Mat Machine

section
variable {α : Type} [Zero α] [One α] [Add α] [Sub α] [Mul α] [Div α]

omit [One α] [Add α] [Sub α] [Mul α] [Div α] in
theorem padded1 {K n1 : Int} {u u' : Int → α} (own : ∀ j, 1 ≤ j → j ≤ n1 → u' j = u j) (ghost : ∀ j, n1 < j → j ≤ K → u' j = 0) (p : Int) (p1 : 1 ≤ p)
    (p2 : p ≤ K) : zetaA true K u' p = zetaA false n1 u p := by
  simp only [zetaA, if_true, Bool.false_eq_true, if_false]
  by_cases h : p ≤ n1
  · rw [if_pos h, own p p1 h]
  · rw [if_neg h, ghost p (by omega) p2]

omit [One α] [Add α] [Sub α] [Mul α] [Div α] in
theorem padded2 {K n1 : Int} {v v' : Int → α} (own : ∀ j, n1 < j → j ≤ K → v' j = v (j - n1)) (ghost : ∀ j, 1 ≤ j → j ≤ n1 → v' j = 0) (p : Int) (p1 : 1 ≤ p)
    (p2 : p ≤ K) : zetaB true K v' p = zetaB false n1 v p := by
  simp only [zetaB, if_true, Bool.false_eq_true, if_false]
  by_cases h : p ≤ n1
  · rw [if_pos h, ghost p p1 h]
  · rw [if_neg h, own p (by omega) p2]

omit [One α] [Sub α] [Div α] in
theorem proj_congr {K N : Int} {z z' : Int → α} (s C : Int → Int → α) (h : ∀ p, 1 ≤ p → p ≤ K → z' p = z p) : Machine.proj K N z' s C = Machine.proj K N z s C := by
  funext m
  unfold Machine.proj
  conv => lhs; rw [Machine.dot]
  conv => rhs; rw [Machine.dot]
  exact sum_congr _ fun k k1 k2 => by rw [h k k1 (by omega)]

/-- C150 (tables): a counterpoise calculation whose orbitals have no coefficients on the functions of the other monomer gives the numbers of the plain
calculation bit for bit, in any arithmetic. -/
theorem C150_report {coef1 coef2 coef1' coef2' coefP S oe : Mat α} {n1 n2 M N : Int} {u v : Int → α} {C s : Int → Int → α} {E : Int → α}
    (h1 : Values coef1 1 n1 (fun _ j => u j)) (h2 : Values coef2 1 n2 (fun _ j => v j))
    (h1' : Values coef1' 1 (n1 + n2) (fun _ j => if j ≤ n1 then u j else 0)) (h2' : Values coef2' 1 (n1 + n2) (fun _ j => if j ≤ n1 then 0 else v (j - n1)))
    (hP : Values coefP M N C) (hS : Values S (n1 + n2) N s) (hE : VectorOf oe M E) :
    ∃ r, transferReport coef1 coef2 coefP S oe false = .ok r ∧ transferReport coef1' coef2' coefP S oe true = .ok r := by
  refine ⟨_, C99_report h1 h2 hP hS hE (show Conforming false n1 n2 (n1 + n2) from rfl), ?_⟩
  rw [C99_report h1' h2' hP hS hE (show Conforming true (n1 + n2) (n1 + n2) (n1 + n2) from ⟨rfl, rfl⟩)]
  rw [proj_congr s C (z := zetaA false n1 u) fun p => padded1 (fun j _ h => if_pos h) (fun j h _ => if_neg (by omega)) p,
    proj_congr s C (z := zetaB false n1 v) fun p => padded2 (fun j h _ => if_neg (by omega)) (fun j _ h => if_pos h) p]

theorem QC.MachineReport.ghosts {cp cp' : Bool} {coef1 coef2 coefP S coef1' coef2' coefP' S' : Mat α} {E E' : List α} {row1 row2 row1' row2' : Int} {r r' : Report α}
    (h : MachineReport cp coef1 coef2 coefP S E row1 row2 r) (h' : MachineReport cp' coef1' coef2' coefP' S' E' row1' row2' r')
    (g : Ghosts cp cp' coef1 coef1' coef2 coef2' coefP coefP' S S' E E' row1 row1' row2 row2') : r' = r := by
  obtain ⟨N1, n1, N2, n2, M, N, K, c1, c2, C, s, h1, h2, hP, hS, -, hc, l1, l2, l3, l4, rfl⟩ := h
  obtain ⟨rfl, rfl, ⟨e1, e2, e3, e4, e5, e6⟩, o1, g1, o2, g2, d, ov, rfl⟩ := g
  have h'' := h'
  obtain ⟨N1', n1', N2', n2', M', N', K', c1', c2', C', s', h1', h2', hP', hS', -, -, l1', l2', l3', l4', -⟩ := h'
  have hK : n1 + n2 = K := hc
  have c1e := h1.cols
  have c2e := h2.cols
  have a1 : n1' = K := by rw [← h1'.cols, e1, c1e, c2e, hK]
  have a2 : n2' = K := by rw [← h2'.cols, e2, c1e, c2e, hK]
  subst a1
  subst a2
  have n1pos := h1.pos.2
  have n2pos := h2.pos.2
  have wP : Values coefP' M N C := ⟨hP'.wf, e3.trans hP.rows, e4.trans hP.cols, hP'.shel, fun i j a b c e => by
    rw [d i j a (by rw [hP.rows]; exact b) c (by rw [hP.cols]; exact e), hP.val i j a b c e]⟩
  have wS : Values S' n2' N s := ⟨hS'.wf, e5.trans hS.rows, e6.trans hS.cols, hS'.shel, fun i j a b c e => by
    rw [ov i j a (by rw [hS.rows]; exact b) c (by rw [hS.cols]; exact e), hS.val i j a b c e]⟩
  obtain ⟨-, -, -, -, e⟩ := MachineReport.values h'' h1' h2' wP wS
  have i1 : ∀ j, 1 ≤ j → j ≤ n1 → c1' row1' j = c1 row1 j := fun j a b => by
    have := o1 j a (by omega)
    rw [h1'.val _ _ l1' l2' a (by omega), h1.val _ _ l1 l2 a b] at this
    exact Res.ok.inj this
  have i2 : ∀ j, n1 < j → j ≤ n2' → c1' row1' j = 0 := fun j a b => by
    have := g1 (j - n1) (by omega) (by omega)
    rw [c1e, show n1 + (j - n1) = j by omega, h1'.val _ _ l1' l2' (by omega) b] at this
    exact Res.ok.inj this
  have i3 : ∀ j, n1 < j → j ≤ n2' → c2' row2' j = c2 row2 (j - n1) := fun j a b => by
    have := o2 (j - n1) (by omega) (by omega)
    rw [c1e, show n1 + (j - n1) = j by omega, h2'.val _ _ l3' l4' (by omega) b, h2.val _ _ l3 l4 (by omega) (by omega)] at this
    exact Res.ok.inj this
  have i4 : ∀ j, 1 ≤ j → j ≤ n1 → c2' row2' j = 0 := fun j a b => by
    have := g2 j a (by omega)
    rw [h2'.val _ _ l3' l4' a (by omega)] at this
    exact Res.ok.inj this
  rw [e]
  have f1 : Machine.proj n2' N (zetaA Bool.true n2' (c1' row1')) s C = Machine.proj n2' N (zetaA false n1 (c1 row1)) s C := proj_congr s C (padded1 i1 i2)
  have f2 : Machine.proj n2' N (zetaB Bool.true n2' (c2' row2')) s C = Machine.proj n2' N (zetaB false n1 (c2 row2)) s C := proj_congr s C (padded2 i3 i4)
  rw [f1, f2]

variable {β : Type} [Num α] [DecidableEq β] {D : Type} [Args.Dbl D]

/-- C150 (runs): the same for any two runs of calc_J, the first without and the second with counterpoise. -/
theorem C150_run (tos tos' : α → β) (files files' : Str → Option Str) (fuel fuel' : Nat) (args args' : List Str) {par par' : Params.Params} {r r' : Report α}
    (h : calcJRun D tos files fuel args = .ok (par, r)) (h' : calcJRun D tos' files' fuel' args' = .ok (par', r')) :
    ∃ coef1 coef2 coefP S eP row1 row2 coef1' coef2' coefP' S' eP' row1' row2',
      TablesOf tos files fuel par coef1 coef2 coefP S eP row1 row2 ∧ TablesOf tos' files' fuel' par' coef1' coef2' coefP' S' eP' row1' row2' ∧
      (Ghosts par.counterPoise par'.counterPoise coef1 coef1' coef2 coef2' coefP coefP' S S' eP eP' row1 row1' row2 row2' → r' = r) := by
  obtain ⟨coef1, coef2, coefP, S, eP, row1, row2, t, k⟩ := C146_run tos files fuel args h
  obtain ⟨coef1', coef2', coefP', S', eP', row1', row2', t', k'⟩ := C146_run tos' files' fuel' args' h'
  exact ⟨coef1, coef2, coefP, S, eP, row1, row2, coef1', coef2', coefP', S', eP', row1', row2', t, t', fun a => k.ghosts k' a⟩

end

section
variable {α : Type} [Field α] [LinearOrder α] [IsStrictOrderedRing α]

/-- C150 (small ghost coefficients): in exact arithmetic, if the orbitals of the counterpoise calculation differ by at most `κ` in every coefficient from the
orbitals of the plain one padded with zeros, the overlaps differ by at most `2 K κ`, the energies by at most `K κ` times the range of the dimer's energies and the
couplings by at most `5 K κ` times this range over `1 - S²`. -/
theorem C150_close {coef1 coef2 coef1' coef2' coefP S oe : Mat α} {n1 n2 : Int} {u v u' v' : Int → α} {C s : Int → Int → α} {E : Int → α} {κ lo hi : α}
    (h1 : Values coef1 1 n1 (fun _ j => u j)) (h2 : Values coef2 1 n2 (fun _ j => v j))
    (h1' : Values coef1' 1 (n1 + n2) (fun _ j => u' j)) (h2' : Values coef2' 1 (n1 + n2) (fun _ j => v' j))
    (hP : Values coefP (n1 + n2) (n1 + n2) C) (hS : Values S (n1 + n2) (n1 + n2) s) (hE : VectorOf oe (n1 + n2) E)
    (ho : Orthonormal (n1 + n2) s C) (hs : ∀ p q, 1 ≤ p → p ≤ n1 + n2 → 1 ≤ q → q ≤ n1 + n2 → |s p q| ≤ 1)
    (ha : sandwich (n1 + n2) (zetaA false n1 u) s (zetaA false n1 u) = 1) (hb : sandwich (n1 + n2) (zetaB false n1 v) s (zetaB false n1 v) = 1)
    (ha' : sandwich (n1 + n2) u' s u' = 1) (hb' : sandwich (n1 + n2) v' s v' = 1) (hκ : 0 ≤ κ)
    (hu : ∀ j, 1 ≤ j → j ≤ n1 + n2 → |u' j - (if j ≤ n1 then u j else 0)| ≤ κ) (hv : ∀ j, 1 ≤ j → j ≤ n1 + n2 → |v' j - (if j ≤ n1 then 0 else v (j - n1))| ≤ κ)
    (hr : ∀ m, 1 ≤ m → m ≤ n1 + n2 → lo ≤ E m ∧ E m ≤ hi) :
    ∃ r r', transferReport coef1 coef2 coefP S oe false = .ok r ∧ transferReport coef1' coef2' coefP S oe true = .ok r' ∧
      CloseReports (((n1 + n2 : Int) : α) * κ) 0 lo hi r r' := by
  have n1pos := h1.pos.2
  have n2pos := h2.pos.2
  have hK : (0 : α) ≤ ((n1 + n2 : Int) : α) := by exact_mod_cast (show (0 : Int) ≤ n1 + n2 by omega)
  have nrm : ∀ z, sandwich (n1 + n2) z s z = 1 → Normed (n1 + n2) (QC.proj (n1 + n2) (n1 + n2) z s C) := fun z hz => by
    unfold Normed
    rw [← hz, ← overlap_sum ho]
    exact Finset.sum_congr rfl fun m _ => by ring
  have na := near_coefs (z := zetaA false n1 u) (z' := zetaA true (n1 + n2) u') ho hs (κ := κ) fun p a b => by
    simpa only [zetaA, if_true, Bool.false_eq_true, if_false] using hu p a b
  have nb := near_coefs (z := zetaB false n1 v) (z' := zetaB true (n1 + n2) v') ho hs (κ := κ) fun p a b => by
    simpa only [zetaB, if_true, Bool.false_eq_true, if_false] using hv p a b
  obtain ⟨r, r', e, e', -, -, k1, k2, k3, k4⟩ := C144_close (cp := false) (cp' := true) (δ := 0) h1 h2 hP hS hE (show Conforming false n1 n2 (n1 + n2) from rfl) h1' h2' hP hS hE
    (show Conforming true (n1 + n2) (n1 + n2) (n1 + n2) from ⟨rfl, rfl⟩) (nrm _ ha) (nrm _ hb) (nrm _ ha') (nrm _ hb') (mul_nonneg hK hκ) na nb hr
    (fun m _ _ => by rw [sub_self, abs_zero])
  exact ⟨r, r', e, e', k1, k2, k3, k4⟩

end
end Verif
