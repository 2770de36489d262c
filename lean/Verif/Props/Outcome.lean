import Verif.Props.Transfer
/-
Property C110: the exact outcome of calcJ.
-/
namespace Verif.QC
open Verif.Mat
variable {α : Type}

theorem getRow_exit [Zero α] {m : Mat α} (h : WF m) {R : Int} (hR : R < 1 ∨ m.rows < R) : m.getRow R = .exit 1 := by
  unfold Mat.getRow
  by_cases h2 : m.rows < R
  · rw [if_pos h2]
  · rw [if_neg h2]
    have h1 : R < 1 := by omega
    obtain ⟨m1, e1, hm1⟩ := mk3_isMat (α := α) (r := 1) (c := m.cols) (s := m.shel) (by omega) h.cols1 h.shel1
    rw [e1]
    simp only [Res.ok_bind]
    rw [forRange_cons h.cols1, forRange_cons h.shel1]
    have : m.getElem3 R 1 1 = .exit 1 := by unfold Mat.getElem3; rw [if_pos h1]
    rw [this]
    rfl

/-- Where the row of a request is assigned to a fresh matrix, `k` continues with it. -/
theorem selected [Zero α] {β : Type} {coef : Mat α} {N nb : Int} {c : Int → Int → α} (h : Values coef N nb c) (orbs : Int × Int)
    (types : Str → Option Str) (nums : Str → Option Int) (key : Str) (k : Mat α → Res β) {d : Mat α} (hd : Mat.default = .ok d) (g : Int → Res β)
    (hk : ∀ row a, 1 ≤ row → row ≤ N → Values a 1 nb (fun _ j => c row j) → k a = g row) :
    (mapAt types key >>= fun kd => mapAt nums key >>= fun n => selectRow coef orbs kd n >>= fun r => d.assign r >>= k) =
      (request N orbs (types key) (nums key) >>= g) := by
  unfold mapAt
  cases types key with
  | none => rfl
  | some kd =>
    cases nums key with
    | none => rfl
    | some n =>
      simp only [Res.ok_bind, request]
      -- a request that names row `row`
      have named : ∀ row, NamesOrbital orbs kd n row →
          selectRow coef orbs kd n >>= (fun r => d.assign r >>= k) = request.existing N row >>= g := by
        intro row hn
        unfold request.existing
        by_cases hr : 1 ≤ row ∧ row ≤ N
        · obtain ⟨x, ex, hx⟩ := selectRow_ok h hn hr
          obtain ⟨d', ed, hd'⟩ := default_isMat (α := α)
          rw [hd] at ed
          cases ed
          have q := h.pos
          obtain ⟨a, ea, ha⟩ := assign_isMat hd' (Or.inl (by omega)) hx (by omega) q.2 (by omega)
          rw [if_pos hr, ex]
          simp only [Res.ok_bind]
          rw [ea]
          simp only [Res.ok_bind]
          exact hk row a hr.1 hr.2 (ha.values (by omega) q.2)
        · rw [if_neg hr]
          have hex : ∀ R, R = row → coef.getRow R = .exit 1 := by
            intro R hR
            exact getRow_exit h.wf (by rw [h.rows]; omega)
          have : selectRow coef orbs kd n = .exit 1 := by
            unfold selectRow
            rcases hn with ⟨rfl, a1, a2, e⟩ | ⟨rfl, a1, a2, e⟩
            · rw [if_pos rfl, if_neg (by omega), if_neg (by omega)]; exact hex _ e.symm
            · rw [if_neg (by decide), if_pos rfl, if_neg (by omega), if_neg (by omega)]; exact hex _ (by omega)
          rw [this]; rfl
      by_cases c1 : kd = "HOMO".toList ∧ -orbs.2 < n ∧ n ≤ 0
      · rw [if_pos c1]
        exact named _ (Or.inl ⟨c1.1, c1.2.2, c1.2.1, rfl⟩)
      · rw [if_neg c1]
        by_cases c2 : kd = "LUMO".toList ∧ 0 ≤ n ∧ n < orbs.1 - orbs.2
        · rw [if_pos c2]
          exact named _ (Or.inr ⟨c2.1, c2.2.1, c2.2.2, rfl⟩)
        · rw [if_neg c2, selectRow_throw coef]
          · rfl
          · rintro ⟨row, ⟨a, b, b', -⟩ | ⟨a, b, b', -⟩⟩
            · exact c1 ⟨a, b', b⟩
            · exact c2 ⟨a, b, b'⟩

section
variable [Field α] {n1 n2 M N K L N1 N2 : Int} {C s : Int → Int → α} {E : Int → α}

/-- C110: what `calcJ` does, for whatever matrices (of one shelf, with a vector of energies) the object holds and whatever is
requested: the request for monomer 1 is looked at first, then that for monomer 2, and either may fail; then the process
ends with status 1 if the monomer bases do not add up to the rows of the overlap (with counterpoise: equal them) or there
is not one energy for each dimer orbital; otherwise the result is the coupling of the two orbitals. -/
theorem C110_calcJ (T : TransferComplex α) {c1 c2 : Int → Int → α} (h1 : Values T.coef1 N1 n1 c1) (h2 : Values T.coef2 N2 n2 c2)
    (hP : Values T.coefP M N C) (hS : Values T.S K N s) (hE : VectorOf T.oe L E)
    (orbtype : Str → Option Str) (orbnum : Str → Option Int) :
    T.calcJ orbtype orbnum = (do
      let row1 ← request N1 T.orbs1 (orbtype "mon1".toList) (orbnum "mon1".toList)
      let row2 ← request N2 T.orbs2 (orbtype "mon2".toList) (orbnum "mon2".toList)
      if Conforming T.cp n1 n2 K ∧ L = M then
        .ok (coupling M (proj K N (zetaA T.cp n1 (c1 row1)) s C) (proj K N (zetaB T.cp n1 (c2 row2)) s C) E)
      else .exit 1) := by
  obtain ⟨d, ed, hd⟩ := default_isMat (α := α)
  rw [TransferComplex.calcJ_def]
  simp only [ed, Res.ok_bind]
  refine selected h1 T.orbs1 _ _ _ _ ed _ (fun row1 a _ _ ha => ?_)
  refine selected h2 T.orbs2 _ _ _ _ ed _ (fun row2 b _ _ hb => ?_)
  by_cases hc : Conforming T.cp n1 n2 K ∧ L = M
  · obtain ⟨hc, rfl⟩ := hc
    rw [if_pos ⟨hc, rfl⟩]
    exact transfer_eq (u := c1 row1) (v := c2 row2) ha hb hP hS hE hc
  · rw [if_neg hc]
    exact C34_refuted_general (u := c1 row1) (v := c2 row2) ha hb hP hS hE hc

/-- C110, from the constructor on: the columns of the overlap must be those of the dimer coefficients and the monomer bases
must fit (`invalid_argument` otherwise, before any request is looked at). -/
theorem C110_job {coef1 coef2 coefP S oe : Mat α} {c1 c2 : Int → Int → α} {NS : Int} (h1 : Values coef1 N1 n1 c1)
    (h2 : Values coef2 N2 n2 c2) (hP : Values coefP M N C) (hS : Values S K NS s) (hE : VectorOf oe L E)
    (orbs1 orbs2 : Int × Int) (cp : Bool) (orbtype : Str → Option Str) (orbnum : Str → Option Int) :
    (TransferComplex.new coef1 coef2 coefP orbs1 orbs2 S oe cp >>= fun T => T.calcJ orbtype orbnum) =
      if NS = N ∧ (if cp then n1 = N ∧ n2 = N else n1 + n2 ≤ N) then (do
        let row1 ← request N1 orbs1 (orbtype "mon1".toList) (orbnum "mon1".toList)
        let row2 ← request N2 orbs2 (orbtype "mon2".toList) (orbnum "mon2".toList)
        if Conforming cp n1 n2 K ∧ L = M then
          .ok (coupling M (proj K N (zetaA cp n1 (c1 row1)) s C) (proj K N (zetaB cp n1 (c2 row2)) s C) E)
        else .exit 1)
      else .throw .invalidArgument := by
  obtain ⟨k1, k2⟩ := C34_ctor coef1 coef2 coefP orbs1 orbs2 S oe cp
  rw [h1.cols, h2.cols, hP.cols, hS.cols] at k1 k2
  by_cases hc : NS = N ∧ (if cp then n1 = N ∧ n2 = N else n1 + n2 ≤ N)
  · rw [if_pos hc, k1 hc]
    obtain ⟨rfl, -⟩ := hc
    exact C110_calcJ ⟨coef1, coef2, coefP, orbs1, orbs2, S, oe, false, cp⟩ h1 h2 hP hS hE orbtype orbnum
  · rw [if_neg hc, k2 hc]; rfl

end

/-- The hypotheses hold for the example of C35 (one orbital per monomer), and requests of every kind occur. -/
example : Values exMon1 1 1 (fun _ j => exu j) ∧ Values exMon2 1 2 (fun _ j => exv j) ∧ Values exDimer 3 3 exC ∧
    Values exS 3 3 exs ∧ VectorOf exOE 3 exE :=
  ⟨Values.of_table (by decide +kernel), Values.of_table (by decide +kernel), Values.of_table (by decide +kernel),
    Values.of_table (by decide +kernel), Or.inl (Values.of_table (by decide +kernel))⟩
example : request 1 (1, 1) (some "HOMO".toList) (some 0) = .ok 1 ∧ request 1 (5, 2) (some "HOMO".toList) (some 0) = .exit 1 ∧
    request 1 (1, 1) (some "LUMO".toList) (some 0) = .throw .invalidArgument ∧ request 9 (9, 3) (some "LUMO".toList) (some 2) = .ok 6 ∧
    request 1 (1, 1) none (some 0) = .throw .outOfRange := by decide

end Verif.QC
