import Verif.Spec.TotalError
import Verif.Props.Errors
import Verif.Props.Rounding
/-
C145: rounded tables and rounded arithmetic together.
-/
namespace Verif
open Strings Readers QC Mat Machine Finset

section
variable {α K : Type} [Zero α] [One α] [Add α] [Sub α] [Mul α] [Div α] [Field K] [LinearOrder K] [IsStrictOrderedRing K] {e : K} {val : α → K}

omit [Zero α] [One α] [Add α] [Sub α] [Mul α] [Div α] in
/-- Products of two vectors of length at most the root of `L`, weighted with numbers of size at most `W`. -/
theorem tame_sum {M : Int} {x y w : Int → K} {L W : K} (hx : ∑ m ∈ Icc 1 M, x m ^ 2 ≤ L) (hy : ∑ m ∈ Icc 1 M, y m ^ 2 ≤ L) (hW : 0 ≤ W)
    (hw : ∀ m, 1 ≤ m → m ≤ M → |w m| ≤ W) : |∑ m ∈ Icc 1 M, y m * w m * x m| ≤ L * W := by
  have e : ∑ m ∈ Icc 1 M, (x m ^ 2 + y m ^ 2) = ∑ m ∈ Icc 1 M, x m ^ 2 + ∑ m ∈ Icc 1 M, y m ^ 2 := Finset.sum_add_distrib
  calc |∑ m ∈ Icc 1 M, y m * w m * x m| ≤ ∑ m ∈ Icc 1 M, |y m * w m * x m| := Finset.abs_sum_le_sum_abs _ _
    _ ≤ ∑ m ∈ Icc 1 M, (x m ^ 2 + y m ^ 2) * (W / 2) := by
        refine Finset.sum_le_sum fun m hm => ?_
        rw [mem_Icc] at hm
        have h2 : |x m * y m| ≤ (x m ^ 2 + y m ^ 2) / 2 := by
          rw [abs_le]
          constructor
          · nlinarith [sq_nonneg (x m + y m)]
          · nlinarith [sq_nonneg (x m - y m)]
        have : y m * w m * x m = (x m * y m) * w m := by ring
        rw [this]
        exact (mul_bound h2 (hw m hm.1 hm.2)).trans_eq (by ring)
    _ = (∑ m ∈ Icc 1 M, x m ^ 2 + ∑ m ∈ Icc 1 M, y m ^ 2) * (W / 2) := by rw [← Finset.sum_mul, e]
    _ ≤ L * W := by
        have := mul_le_mul_of_nonneg_right (add_le_add hx hy) (div_nonneg hW zero_le_two)
        exact this.trans_eq (by ring)

omit [Zero α] [One α] [Add α] [Sub α] [Mul α] [Div α] in
/-- The projections themselves are no larger than those with all signs made positive. -/
theorem tame_proj {P N M : Int} {z : Int → K} {s C : Int → Int → K} {L : K} (h : Tame L P N M z s C) : ∑ m ∈ Icc 1 M, QC.proj P N z s C m ^ 2 ≤ L := by
  refine le_trans (Finset.sum_le_sum fun m _ => ?_) h
  have : |QC.proj P N z s C m| ≤ QC.proj P N (size1 z) (size2 s) (size2 C) m := by
    unfold QC.proj size1 size2
    refine (Finset.abs_sum_le_sum_abs _ _).trans (Finset.sum_le_sum fun p _ => ?_)
    refine (Finset.abs_sum_le_sum_abs _ _).trans (Finset.sum_le_sum fun q _ => ?_)
    rw [abs_mul, abs_mul]
  exact sq_le_sq.2 (by rw [abs_of_nonneg ((abs_nonneg _).trans this)]; exact this)

omit [Zero α] [One α] [Add α] [Sub α] [Mul α] [Div α] in
/-- What is left of the coupling's error. -/
theorem jeff_step {x J0 Y dX dY w ρ t L u : K} (hu : 0 ≤ u) (hρ : 0 ≤ ρ) (ht : 0 ≤ t) (hw : 0 < w)
    (hwY : w + ρ * (1 + L ^ 2) ≤ |Y|) (hX : dX ≤ ρ * t) (hY : dY ≤ ρ * (1 + L ^ 2)) (hJ : |J0| * |Y| ≤ t)
    (h : ∀ {d : K}, dY < |Y| → d = (dX + |J0| * dY) / (|Y| - dY) → |x - J0| ≤ d + u * (|J0| + d)) :
    |x - J0| ≤ ρ * t * (w + 1 + L ^ 2) / w ^ 2 + u * (t / w + ρ * t * (w + 1 + L ^ 2) / w ^ 2) := by
  have hq : 0 ≤ ρ * (1 + L ^ 2) := mul_nonneg hρ (by positivity)
  have hwY' : w ≤ |Y| := by linarith
  have hJ' : |J0| ≤ t / w := by
    rw [le_div_iff₀ hw]
    exact (mul_le_mul_of_nonneg_left hwY' (abs_nonneg _)).trans hJ
  have htw : 0 ≤ t / w := div_nonneg ht hw.le
  have hd : (dX + |J0| * dY) / (|Y| - dY) ≤ ρ * t * (w + 1 + L ^ 2) / w ^ 2 := by
    have h1 : |J0| * dY ≤ t / w * (ρ * (1 + L ^ 2)) :=
      (mul_le_mul_of_nonneg_left hY (abs_nonneg _)).trans (mul_le_mul_of_nonneg_right hJ' hq)
    calc (dX + |J0| * dY) / (|Y| - dY) ≤ (ρ * t + t / w * (ρ * (1 + L ^ 2))) / w :=
          div_le_div₀ (add_nonneg (mul_nonneg hρ ht) (mul_nonneg htw hq)) (add_le_add hX h1) hw (by linarith)
      _ = _ := by field_simp; ring
  refine (h (by linarith) rfl).trans ?_
  exact add_le_add hd (mul_le_mul_of_nonneg_left (add_le_add hJ' hd) hu)

omit [Zero α] [One α] [Add α] [Sub α] [Mul α] [Div α] in
theorem trueUpTo_of {r : Report α} {P N M : Int} {zA zB : Int → K} {s C : Int → Int → K} {E E' a b : Int → K} {ε δ B L : K} (he : 0 ≤ e)
    (h : Accurate e val r P N M zA zB s C E') (ha : Normed M a) (hb : Normed M b) (hε : 0 ≤ ε) (na : Near M ε a (QC.proj P N zA s C))
    (nb : Near M ε b (QC.proj P N zB s C)) (hB : ∀ m, 1 ≤ m → m ≤ M → |E m| ≤ B) (hd : ∀ m, 1 ≤ m → m ≤ M → |E' m - E m| ≤ δ)
    (tA : Tame L P N M zA s C) (tB : Tame L P N M zB s C) :
    TrueUpTo e val (growth e (4 * P.toNat + 4 * N.toNat + 3 * M.toNat + 15)) L (ε * (2 + ε)) δ B M a b E r := by
  have hM : 1 ≤ M := by
    by_contra hn
    have : ∑ m ∈ Icc 1 M, a m ^ 2 = 0 := Finset.sum_eq_zero fun m hm => by rw [mem_Icc] at hm; omega
    unfold Normed at ha
    rw [this] at ha
    exact zero_ne_one ha
  have hB0 : 0 ≤ B := (abs_nonneg _).trans (hB 1 le_rfl hM)
  have hδ : 0 ≤ δ := (abs_nonneg _).trans (hd 1 le_rfl hM)
  have hL : 0 ≤ L := (Finset.sum_nonneg fun m _ => sq_nonneg _).trans tA
  have hE' : ∀ m, 1 ≤ m → m ≤ M → |E' m| ≤ B + δ := fun m h1 h2 => by
    have : E' m = E m + (E' m - E m) := by ring
    rw [this]
    exact (abs_add_le _ _).trans (add_le_add (hB m h1 h2) (hd m h1 h2))
  have hT := reportOf_rounded ha hb hε na nb hB hd
  have m1 : growth e (2 * P.toNat + 2 * N.toNat + 2 * M.toNat + 6) ≤ growth e (4 * P.toNat + 4 * N.toNat + 3 * M.toNat + 15) := growth_mono he (by omega)
  have g1 : 0 ≤ growth e (2 * P.toNat + 2 * N.toNat + 2 * M.toNat + 6) := growth_nonneg he _
  have m2 : growth e (2 * P.toNat + 2 * N.toNat + M.toNat + 5) ≤ growth e (4 * P.toNat + 4 * N.toNat + 3 * M.toNat + 15) := growth_mono he (by omega)
  have g2 : 0 ≤ growth e (2 * P.toNat + 2 * N.toNat + M.toNat + 5) := growth_nonneg he _
  have m3 : growth e (4 * P.toNat + 4 * N.toNat + 2 * M.toNat + 12) ≤ growth e (4 * P.toNat + 4 * N.toNat + 3 * M.toNat + 15) := growth_mono he (by omega)
  have g3 : 0 ≤ growth e (4 * P.toNat + 4 * N.toNat + 2 * M.toNat + 12) := growth_nonneg he _
  have g4 : 0 ≤ growth e (4 * P.toNat + 4 * N.toNat + 3 * M.toNat + 15) := growth_nonneg he _
  have hBd : 0 ≤ B + δ := add_nonneg hB0 hδ
  have hLB : 0 ≤ L * (B + δ) := mul_nonneg hL hBd
  have hE1 : ∀ m, 1 ≤ m → m ≤ M → |size1 E' m| ≤ B + δ := fun m h1 h2 => by unfold size1; rw [abs_abs]; exact hE' m h1 h2
  have one : ∀ {x y : Int → K}, ∑ m ∈ Icc 1 M, x m ^ 2 ≤ L → ∑ m ∈ Icc 1 M, y m ^ 2 ≤ L → |overlapAB M x y| ≤ L := by
    intro x y hx hy
    have := tame_sum (w := fun _ => 1) hx hy zero_le_one (fun m _ _ => by rw [abs_one])
    simpa [overlapAB] using this
  have site : ∀ {x w : Int → K}, (∀ m, 1 ≤ m → m ≤ M → |w m| ≤ B + δ) → ∑ m ∈ Icc 1 M, x m ^ 2 ≤ L → |siteEnergy M x w| ≤ L * (B + δ) := by
    intro x w hw hx
    have := tame_sum hx hx hBd hw
    have e : siteEnergy M x w = ∑ m ∈ Icc 1 M, x m * w m * x m := Finset.sum_congr rfl fun m _ => by ring
    rwa [e]
  have coup : ∀ {x y w : Int → K}, (∀ m, 1 ≤ m → m ≤ M → |w m| ≤ B + δ) → ∑ m ∈ Icc 1 M, x m ^ 2 ≤ L → ∑ m ∈ Icc 1 M, y m ^ 2 ≤ L →
      |couplingJ M x y w| ≤ L * (B + δ) := fun hw hx hy => tame_sum hx hy hBd hw
  have up : ∀ {p q x X : K}, 0 ≤ p → p ≤ q → |x| ≤ X → p * x ≤ q * X := fun hp hpq hx =>
    (mul_le_mul_of_nonneg_left ((le_abs_self _).trans hx) hp).trans (mul_le_mul_of_nonneg_right hpq ((abs_nonneg _).trans hx))
  -- the errors of the arithmetic
  have es := h.sab.trans (up g2 m2 (one tA tB))
  have ea := h.ea.trans (up g1 m1 (site hE1 tA))
  have eb := h.eb.trans (up g1 m1 (site hE1 tB))
  have ej := h.jab.trans (up g1 m1 (coup hE1 tA tB))
  have tri : ∀ {x y z p q : K}, |x - y| ≤ p → |y - z| ≤ q → |x - z| ≤ q + p := fun {x y z p q} h1 h2 => by
    have : x - z = (x - y) + (y - z) := by ring
    rw [this, add_comm q p]
    exact (abs_add_le _ _).trans (add_le_add h1 h2)
  refine ⟨tri es hT.sab, tri ea hT.ea, tri eb hT.eb, tri ej hT.jab, ?_⟩
  intro w t d hw hw0 ht hdd
  have pA := tame_proj tA
  have pB := tame_proj tB
  have bs := one pA pB
  have bj := coup hE' pA pB
  have b1 := site hE' pA
  have b2 := site hE' pB
  have hκ : 0 ≤ growth e (4 * P.toNat + 4 * N.toNat + 3 * M.toNat + 15) * L := mul_nonneg g4 hL
  have hs0 : |overlapAB M (QC.proj P N zA s C) (QC.proj P N zB s C)| ≤ |val r.sab| + growth e (4 * P.toNat + 4 * N.toNat + 3 * M.toNat + 15) * L := by
    have : overlapAB M (QC.proj P N zA s C) (QC.proj P N zB s C) = val r.sab - (val r.sab - overlapAB M (QC.proj P N zA s C) (QC.proj P N zB s C)) := by ring
    rw [this]
    exact (abs_sub _ _).trans (add_le_add le_rfl es)
  have hsq : overlapAB M (QC.proj P N zA s C) (QC.proj P N zB s C) ^ 2 ≤ (|val r.sab| + growth e (4 * P.toNat + 4 * N.toNat + 3 * M.toNat + 15) * L) ^ 2 :=
    sq_le_sq.2 (by rw [abs_of_nonneg (add_nonneg (abs_nonneg _) hκ)]; exact hs0)
  have hq : 0 ≤ growth e (4 * P.toNat + 4 * N.toNat + 3 * M.toNat + 15) * (1 + L ^ 2) := mul_nonneg g4 (by positivity)
  have hY : w + growth e (4 * P.toNat + 4 * N.toNat + 3 * M.toNat + 15) * (1 + L ^ 2) ≤ 1 - overlapAB M (QC.proj P N zA s C) (QC.proj P N zB s C) ^ 2 := by
    linarith
  have hY0 : 0 < 1 - overlapAB M (QC.proj P N zA s C) (QC.proj P N zB s C) ^ 2 := by linarith
  have ht0 : 0 ≤ t := by rw [ht]; exact mul_nonneg hLB (by linarith)
  have dj := jeff_step (x := val r.jeff) he g4 ht0 hw0 (hY.trans (le_abs_self _)) (dX := growth e (4 * P.toNat + 4 * N.toNat + 3 * M.toNat + 15) *
      (QC.couplingJ M (QC.proj P N (size1 zA) (size2 s) (size2 C)) (QC.proj P N (size1 zB) (size2 s) (size2 C)) (size1 E') +
        (QC.siteEnergy M (QC.proj P N (size1 zA) (size2 s) (size2 C)) (size1 E') + QC.siteEnergy M (QC.proj P N (size1 zB) (size2 s) (size2 C)) (size1 E')) *
          QC.overlapAB M (QC.proj P N (size1 zA) (size2 s) (size2 C)) (QC.proj P N (size1 zB) (size2 s) (size2 C)) / 2))
    (dY := growth e (4 * P.toNat + 4 * N.toNat + 2 * M.toNat + 12) *
      (1 + QC.overlapAB M (QC.proj P N (size1 zA) (size2 s) (size2 C)) (QC.proj P N (size1 zB) (size2 s) (size2 C)) ^ 2))
    (J0 := QC.coupling M (QC.proj P N zA s C) (QC.proj P N zB s C) E') ?_ ?_ ?_ (fun k1 k2 => h.jeff rfl rfl rfl rfl rfl rfl rfl k1 k2)
  · rw [← hdd] at dj
    refine (tri dj (hT.jeff (sub_pos.1 hY0))).trans ?_
    have k : (ε * (2 + ε) * B * (5 + 2 * (ε * (2 + ε))) + δ * (1 + ε * (2 + ε)) * (2 + ε * (2 + ε))) / (1 - overlapAB M (QC.proj P N zA s C) (QC.proj P N zB s C) ^ 2) ≤
        (ε * (2 + ε) * B * (5 + 2 * (ε * (2 + ε))) + δ * (1 + ε * (2 + ε)) * (2 + ε * (2 + ε))) / w :=
      div_le_div_of_nonneg_left (by positivity) hw0 (by linarith)
    have k' : ((ε * (2 + ε) * B * (5 + 2 * (ε * (2 + ε))) + δ * (1 + ε * (2 + ε)) * (2 + ε * (2 + ε))) / (1 - (QC.reportOf M (QC.proj P N zA s C) (QC.proj P N zB s C) E').sab ^ 2)) ≤
        (ε * (2 + ε) * B * (5 + 2 * (ε * (2 + ε))) + δ * (1 + ε * (2 + ε)) * (2 + ε * (2 + ε))) / w := k
    linarith
  · refine mul_le_mul_of_nonneg_left ?_ g4
    have x1 := abs_le.1 (coup hE1 tA tB)
    have x2 := abs_le.1 (mul_bound ((abs_add_le _ _).trans (add_le_add (site hE1 tA) (site hE1 tB))) (one tA tB))
    rw [ht]
    linarith [x1.2, x2.2]
  · exact up g3 m3 (by
      have h1 := abs_le.1 (one tA tB)
      have h2 := sq_le_sq' h1.1 h1.2
      rw [abs_of_nonneg (add_nonneg zero_le_one (sq_nonneg _))]
      linarith)
  · rw [← abs_mul]
    have e1 : QC.coupling M (QC.proj P N zA s C) (QC.proj P N zB s C) E' * (1 - overlapAB M (QC.proj P N zA s C) (QC.proj P N zB s C) ^ 2) =
        couplingJ M (QC.proj P N zA s C) (QC.proj P N zB s C) E' - (siteEnergy M (QC.proj P N zA s C) E' + siteEnergy M (QC.proj P N zB s C) E') *
          overlapAB M (QC.proj P N zA s C) (QC.proj P N zB s C) / 2 := by
      unfold QC.coupling
      rw [div_mul_cancel₀ _ hY0.ne']
    rw [e1, ht]
    have x1 := abs_le.1 bj
    have x2 := abs_le.1 (mul_bound ((abs_add_le _ _).trans (add_le_add b1 b2)) bs)
    rw [abs_le]
    constructor
    · linarith [x1.1, x2.2]
    · linarith [x1.2, x2.1]

/-- C145: the tables hold machine numbers that stand, up to small errors, for the projections `a`, `b` (normalised) and the energies `E` that are meant - they
were rounded when they were printed and again when they were read - and every operation of the machine has a relative error of at most `e`. Then what
`calculate_transfer_integral` prints is what is meant, up to the bounds in `TrueUpTo`. -/
theorem C145_report (R : Rounds e val) {coef1 coef2 coefP S oe : Mat α} {cp : Bool}
    {n1 n2 M N P : Int} {u v : Int → α} {C s : Int → Int → α} {E' : Int → α} {E a b : Int → K} {ε δ B L : K}
    (h1 : Values coef1 1 n1 (fun _ j => u j)) (h2 : Values coef2 1 n2 (fun _ j => v j)) (hP : Values coefP M N C)
    (hS : Values S P N s) (hE : VectorOf oe M E') (hc : Conforming cp n1 n2 P) (ha : Normed M a) (hb : Normed M b) (hε : 0 ≤ ε)
    (na : Near M ε a (QC.proj P N (zetaA cp n1 fun p => val (u p)) (fun p q => val (s p q)) fun p q => val (C p q)))
    (nb : Near M ε b (QC.proj P N (zetaB cp n1 fun p => val (v p)) (fun p q => val (s p q)) fun p q => val (C p q)))
    (hB : ∀ m, 1 ≤ m → m ≤ M → |E m| ≤ B) (hd : ∀ m, 1 ≤ m → m ≤ M → |val (E' m) - E m| ≤ δ)
    (tA : Tame L P N M (zetaA cp n1 fun p => val (u p)) (fun p q => val (s p q)) fun p q => val (C p q))
    (tB : Tame L P N M (zetaB cp n1 fun p => val (v p)) (fun p q => val (s p q)) fun p q => val (C p q)) :
    ∃ r, transferReport coef1 coef2 coefP S oe cp = .ok r ∧ calculateTransferIntegral coef1 coef2 coefP S oe cp = .ok r.jeff ∧
      TrueUpTo e val (growth e (4 * P.toNat + 4 * N.toNat + 3 * M.toNat + 15)) L (ε * (2 + ε)) δ B M a b E r := by
  obtain ⟨r, h, k⟩ := C105_report R h1 h2 hP hS hE hc
  exact ⟨r, h, calculate_of_report h, trueUpTo_of R.nonneg k ha hb hε na nb hB hd tA tB⟩

/-- C145 (through `calcJ`): for the two orbitals the user named. -/
theorem C145_calcJ (R : Rounds e val) (T : TransferComplex α) {n1 n2 M N P : Int} {C s : Int → Int → α} {E' : Int → α}
    {N1 N2 : Int} {c1 c2 : Int → Int → α} (h1 : Values T.coef1 N1 n1 c1) (h2 : Values T.coef2 N2 n2 c2)
    (hP : Values T.coefP M N C) (hS : Values T.S P N s) (hE : VectorOf T.oe M E') (hc : Conforming T.cp n1 n2 P)
    (orbtype : Str → Option Str) (orbnum : Str → Option Int) {k1 k2 : Str} {m1 m2 row1 row2 : Int}
    (t1 : orbtype "mon1".toList = some k1) (t2 : orbtype "mon2".toList = some k2)
    (o1 : orbnum "mon1".toList = some m1) (o2 : orbnum "mon2".toList = some m2)
    (s1 : NamesOrbital T.orbs1 k1 m1 row1) (s2 : NamesOrbital T.orbs2 k2 m2 row2)
    (r1 : 1 ≤ row1 ∧ row1 ≤ N1) (r2 : 1 ≤ row2 ∧ row2 ≤ N2) {E a b : Int → K} {ε δ B L : K} (ha : Normed M a) (hb : Normed M b) (hε : 0 ≤ ε)
    (na : Near M ε a (QC.proj P N (zetaA T.cp n1 fun p => val (c1 row1 p)) (fun p q => val (s p q)) fun p q => val (C p q)))
    (nb : Near M ε b (QC.proj P N (zetaB T.cp n1 fun p => val (c2 row2 p)) (fun p q => val (s p q)) fun p q => val (C p q)))
    (hB : ∀ m, 1 ≤ m → m ≤ M → |E m| ≤ B) (hd : ∀ m, 1 ≤ m → m ≤ M → |val (E' m) - E m| ≤ δ)
    (tA : Tame L P N M (zetaA T.cp n1 fun p => val (c1 row1 p)) (fun p q => val (s p q)) fun p q => val (C p q))
    (tB : Tame L P N M (zetaB T.cp n1 fun p => val (c2 row2 p)) (fun p q => val (s p q)) fun p q => val (C p q)) :
    ∃ r, T.calcJReport orbtype orbnum = .ok r ∧
      TrueUpTo e val (growth e (4 * P.toNat + 4 * N.toNat + 3 * M.toNat + 15)) L (ε * (2 + ε)) δ B M a b E r := by
  obtain ⟨r, h, k⟩ := C105_calcJ R T h1 h2 hP hS hE hc orbtype orbnum t1 t2 o1 o2 s1 s2 r1 r2
  exact ⟨r, h, trueUpTo_of R.nonneg k ha hb hε na nb hB hd tA tB⟩

omit [Zero α] [One α] [Add α] [Sub α] [Mul α] [Div α] in
/-- C145 (the size of the projections): if the coefficients of the monomer orbital are at most `z` in size, the overlaps at most `t` and the dimer's coefficients
at most `c`, then `L = M (P N z t c)²` will do. -/
theorem C145_size {P N M : Int} {zeta : Int → K} {s C : Int → Int → K} {z t c : K} (hP : 0 ≤ P) (hN : 0 ≤ N) (hM : 0 ≤ M)
    (hz0 : 0 ≤ z) (ht0 : 0 ≤ t) (hc0 : 0 ≤ c) (hz : ∀ p, 1 ≤ p → p ≤ P → |zeta p| ≤ z) (ht : ∀ p q, 1 ≤ p → p ≤ P → 1 ≤ q → q ≤ N → |s p q| ≤ t)
    (hc : ∀ m q, 1 ≤ m → m ≤ M → 1 ≤ q → q ≤ N → |C m q| ≤ c) : Tame (M * (P * N * (z * t * c)) ^ 2) P N M zeta s C := by
  have card : ∀ k : Int, 0 ≤ k → ((Icc 1 k).card : K) = (k : K) := fun k hk => by
    rw [Int.card_Icc, add_sub_cancel_right]
    exact_mod_cast congrArg (Int.cast : Int → K) (Int.toNat_of_nonneg hk)
  have key : ∀ m ∈ Icc 1 M, QC.proj P N (size1 zeta) (size2 s) (size2 C) m ^ 2 ≤ (P * N * (z * t * c) : K) ^ 2 := by
    intro m hm
    rw [mem_Icc] at hm
    have h0 : 0 ≤ QC.proj P N (size1 zeta) (size2 s) (size2 C) m := by
      unfold QC.proj size1 size2
      exact Finset.sum_nonneg fun p _ => Finset.sum_nonneg fun q _ => by positivity
    refine pow_le_pow_left₀ h0 ?_ 2
    unfold QC.proj size1 size2
    calc ∑ p ∈ Icc 1 P, ∑ q ∈ Icc 1 N, |zeta p| * |s p q| * |C m q| ≤ ∑ p ∈ Icc 1 P, ∑ q ∈ Icc 1 N, z * t * c := by
          refine Finset.sum_le_sum fun p hp => Finset.sum_le_sum fun q hq => ?_
          rw [mem_Icc] at hp hq
          exact mul_le_mul (mul_le_mul (hz p hp.1 hp.2) (ht p q hp.1 hp.2 hq.1 hq.2) (abs_nonneg _) hz0) (hc m q hm.1 hm.2 hq.1 hq.2) (abs_nonneg _) (mul_nonneg hz0 ht0)
      _ = _ := by
          rw [Finset.sum_const, Finset.sum_const, nsmul_eq_mul, nsmul_eq_mul, card P hP, card N hN]; ring
  unfold Tame
  calc _ ≤ ∑ m ∈ Icc 1 M, (P * N * (z * t * c) : K) ^ 2 := Finset.sum_le_sum key
    _ = _ := by rw [Finset.sum_const, nsmul_eq_mul, card M hM]

end

section
variable {α β K : Type} [Zero α] [One α] [Add α] [Sub α] [Mul α] [Div α] [Num α] [DecidableEq β] (D : Type) [Args.Dbl D]
  [Field K] [LinearOrder K] [IsStrictOrderedRing K] {e : K} {val : α → K}
open Log Pun Job Args

/-- C145 (from the command line and the files, no counterpoise). -/
theorem C145_numbers (R : Rounds e val) (tos : α → β) (files : Str → Option Str) {args : List Str} {as : List Asg} (hi : Intelligible args as)
    {file : Str → Str} (hf : FilesMeant files as file) (cp : turnedOn (lit "--counter_poise") as = false)
    {spinP spin1 spin2 : Log.Spin} (sP : askedSpin as (lit "--spin_P") = spinP.name) (s1 : askedSpin as (lit "--spin_1") = spin1.name)
    (s2 : askedSpin as (lit "--spin_2") = spin2.name)
    {orbs1 orbs2 : List (Orbital α)} {es1 es2 esP : List EnergyLine} {rows1 rows2 : List (α × α × α)} {b1 b2 : List Int} {C s : Int → Int → α}
    (m1 : MonomerFiles files (file (lit "--pun_1")) (file (lit "--log_1")) spin1 b1.sum orbs1 es1 rows1)
    (m2 : MonomerFiles files (file (lit "--pun_2")) (file (lit "--log_2")) spin2 b2.sum orbs2 es2 rows2)
    (d : DimerFiles tos files (file (lit "--pun_P")) (file (lit "--log_P")) spinP (rows1 ++ rows2) (b1 ++ b2) (energies esP).length C s esP)
    (hb1 : ∀ b ∈ b1, 1 ≤ b) (hb2 : ∀ b ∈ b2, 1 ≤ b) (l1 : b1.length = rows1.length) (l2 : b2.length = rows2.length)
    (ne1 : rows1 ≠ []) (ne2 : rows2 ≠ [])
    {n1 n2 row1 row2 : Int} (a1 : AskedNum as (lit "--orbital_num_1") n1) (a2 : AskedNum as (lit "--orbital_num_2") n2)
    (r1 : NamesOrbital ((energies es1).length, occupied es1) (askedType as (lit "--orbital_type_1")) n1 row1)
    (r2 : NamesOrbital ((energies es2).length, occupied es2) (askedType as (lit "--orbital_type_2")) n2 row2)
    (hr1 : 1 ≤ row1 ∧ row1 ≤ orbs1.length) (hr2 : 1 ≤ row2 ∧ row2 ≤ orbs2.length)
    {K' M : Int} (hK : K' = (b1 ++ b2).sum) (hM : M = (energies esP).length) {zA zB : Int → K} {sv Cv : Int → Int → K}
    (hA : zA = zetaA false b1.sum fun p => val (coefOf orbs1 row1 p)) (hB' : zB = zetaB false b1.sum fun p => val (coefOf orbs2 row2 p))
    (hs : sv = fun p q => val (s p q)) (hC : Cv = fun p q => val (C p q)) {E a b : Int → K} {ε δ B L : K} (ha : Normed M a) (hb : Normed M b) (hε : 0 ≤ ε)
    (na : Near M ε a (QC.proj K' K' zA sv Cv)) (nb : Near M ε b (QC.proj K' K' zB sv Cv)) (hB : ∀ m, 1 ≤ m → m ≤ M → |E m| ≤ B)
    (hd : ∀ m, 1 ≤ m → m ≤ M → |val (energyOf esP m) - E m| ≤ δ) (tA : Tame L K' K' M zA sv Cv) (tB : Tame L K' K' M zB sv Cv) :
    ∃ par r, Ends (fun fuel => calcJRun D tos files fuel args) (.ok (par, r)) ∧
      TrueUpTo e val (growth e (8 * K'.toNat + 3 * M.toNat + 15)) L (ε * (2 + ε)) δ B M a b E r := by
  obtain ⟨par, r, h, k⟩ := C105_numbers D R tos files hi hf cp sP s1 s2 m1 m2 d hb1 hb2 l1 l2 ne1 ne2 a1 a2 r1 r2 hr1 hr2
  subst hK hM hA hB' hs hC
  have := trueUpTo_of R.nonneg k ha hb hε na nb hB hd tA tB
  rw [show ∀ x y : Nat, 4 * x + 4 * x + y = 8 * x + y by omega] at this
  exact ⟨par, r, h, this⟩

/-- C145 (counterpoise). -/
theorem C145_numbers_cp (R : Rounds e val) (tos : α → β) (files : Str → Option Str) {args : List Str} {as : List Asg} (hi : Intelligible args as)
    {file : Str → Str} (hf : FilesMeant files as file) (cp : turnedOn (lit "--counter_poise") as = true)
    {spinP spin1 spin2 : Log.Spin} (sP : askedSpin as (lit "--spin_P") = spinP.name) (s1 : askedSpin as (lit "--spin_1") = spin1.name)
    (s2 : askedSpin as (lit "--spin_2") = spin2.name)
    {orbs1 : List (Orbital α)} {es1 es2 esP : List EnergyLine} {rows : List (α × α × α)} {basis : List Int} {N2 : Nat} {c2 C s : Int → Int → α}
    (m1 : MonomerFiles files (file (lit "--pun_1")) (file (lit "--log_1")) spin1 basis.sum orbs1 es1 rows)
    (m2 : ListedFiles tos files (file (lit "--pun_2")) (file (lit "--log_2")) spin2 rows basis N2 c2 es2)
    (d : DimerFiles tos files (file (lit "--pun_P")) (file (lit "--log_P")) spinP rows basis (energies esP).length C s esP)
    (hb' : ∀ b ∈ basis, 1 ≤ b) (hl : basis.length = rows.length) (ne : rows ≠ [])
    {n1 n2 row1 row2 : Int} (a1 : AskedNum as (lit "--orbital_num_1") n1) (a2 : AskedNum as (lit "--orbital_num_2") n2)
    (r1 : NamesOrbital ((energies es1).length, occupied es1) (askedType as (lit "--orbital_type_1")) n1 row1)
    (r2 : NamesOrbital ((energies es2).length, occupied es2) (askedType as (lit "--orbital_type_2")) n2 row2)
    (hr1 : 1 ≤ row1 ∧ row1 ≤ orbs1.length) (hr2 : 1 ≤ row2 ∧ row2 ≤ N2)
    {K' M : Int} (hK : K' = basis.sum) (hM : M = (energies esP).length) {zA zB : Int → K} {sv Cv : Int → Int → K}
    (hA : zA = fun p => val (coefOf orbs1 row1 p)) (hB' : zB = fun p => val (c2 row2 p)) (hs : sv = fun p q => val (s p q)) (hC : Cv = fun p q => val (C p q))
    {E a b : Int → K} {ε δ B L : K} (ha : Normed M a) (hb : Normed M b) (hε : 0 ≤ ε)
    (na : Near M ε a (QC.proj K' K' zA sv Cv)) (nb : Near M ε b (QC.proj K' K' zB sv Cv)) (hB : ∀ m, 1 ≤ m → m ≤ M → |E m| ≤ B)
    (hd : ∀ m, 1 ≤ m → m ≤ M → |val (energyOf esP m) - E m| ≤ δ) (tA : Tame L K' K' M zA sv Cv) (tB : Tame L K' K' M zB sv Cv) :
    ∃ par r, Ends (fun fuel => calcJRun D tos files fuel args) (.ok (par, r)) ∧
      TrueUpTo e val (growth e (8 * K'.toNat + 3 * M.toNat + 15)) L (ε * (2 + ε)) δ B M a b E r := by
  obtain ⟨par, r, h, k⟩ := C105_numbers_cp D R tos files hi hf cp sP s1 s2 m1 m2 d hb' hl ne a1 a2 r1 r2 hr1 hr2
  subst hK hM hA hB' hs hC
  have := trueUpTo_of R.nonneg k ha hb hε na nb hB hd tA tB
  rw [show ∀ x y : Nat, 4 * x + 4 * x + y = 8 * x + y by omega] at this
  exact ⟨par, r, h, this⟩

end
end Verif
