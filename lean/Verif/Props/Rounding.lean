import Verif.Rounding
import Verif.Props.EndToEnd
/-
Property C105: the rounding errors of calc_J.
-/
namespace Verif
open Strings Readers QC Mat Log Pun Job Args Machine

section
variable {α K : Type} [Zero α] [One α] [Add α] [Sub α] [Mul α] [Div α] [Field K] [LinearOrder K] [IsStrictOrderedRing K] {e : K} {val : α → K}

omit [One α] [Add α] [Sub α] [Mul α] [Div α] [LinearOrder K] [IsStrictOrderedRing K] in
theorem val_zetaA (h0 : val 0 = 0) (cp : Bool) (n1 : Int) (u : Int → α) : (fun p => val (zetaA cp n1 u p)) = zetaA cp n1 (fun p => val (u p)) := by
  funext p; unfold zetaA; split <;> [rfl; (split <;> [rfl; exact h0])]

omit [One α] [Add α] [Sub α] [Mul α] [Div α] [LinearOrder K] [IsStrictOrderedRing K] in
theorem val_zetaB (h0 : val 0 = 0) (cp : Bool) (n1 : Int) (u : Int → α) : (fun p => val (zetaB cp n1 u p)) = zetaB cp n1 (fun p => val (u p)) := by
  funext p; unfold zetaB; split <;> [rfl; (split <;> [exact h0; rfl])]

/-- C105 (the computation): in an arithmetic whose operations have a relative error of at most `e`, the numbers
`calculate_transfer_integral` prints are those of the formulas, up to the accumulated error. -/
theorem C105_report (R : Rounds e val) {coef1 coef2 coefP S oe : Mat α} {cp : Bool}
    {n1 n2 M N P : Int} {u v : Int → α} {C s : Int → Int → α} {E : Int → α}
    (h1 : Values coef1 1 n1 (fun _ j => u j)) (h2 : Values coef2 1 n2 (fun _ j => v j)) (hP : Values coefP M N C)
    (hS : Values S P N s) (hE : VectorOf oe M E) (hc : Conforming cp n1 n2 P) :
    ∃ r, transferReport coef1 coef2 coefP S oe cp = .ok r ∧
      Accurate e val r P N M (zetaA cp n1 fun p => val (u p)) (zetaB cp n1 fun p => val (v p)) (fun p q => val (s p q)) (fun p q => val (C p q))
        (fun m => val (E m)) := by
  refine ⟨_, C99_report h1 h2 hP hS hE hc, ?_⟩
  rw [← val_zetaA R.zero, ← val_zetaB R.zero]
  exact report_accurate R ..

/-- C105 (through `calcJ`): for the two orbitals the user named. -/
theorem C105_calcJ (R : Rounds e val) (T : TransferComplex α) {n1 n2 M N P : Int} {C s : Int → Int → α} {E : Int → α}
    {N1 N2 : Int} {c1 c2 : Int → Int → α} (h1 : Values T.coef1 N1 n1 c1) (h2 : Values T.coef2 N2 n2 c2)
    (hP : Values T.coefP M N C) (hS : Values T.S P N s) (hE : VectorOf T.oe M E) (hc : Conforming T.cp n1 n2 P)
    (orbtype : Str → Option Str) (orbnum : Str → Option Int) {k1 k2 : Str} {m1 m2 row1 row2 : Int}
    (t1 : orbtype "mon1".toList = some k1) (t2 : orbtype "mon2".toList = some k2)
    (o1 : orbnum "mon1".toList = some m1) (o2 : orbnum "mon2".toList = some m2)
    (s1 : NamesOrbital T.orbs1 k1 m1 row1) (s2 : NamesOrbital T.orbs2 k2 m2 row2)
    (r1 : 1 ≤ row1 ∧ row1 ≤ N1) (r2 : 1 ≤ row2 ∧ row2 ≤ N2) :
    ∃ r, T.calcJReport orbtype orbnum = .ok r ∧
      Accurate e val r P N M (zetaA T.cp n1 fun p => val (c1 row1 p)) (zetaB T.cp n1 fun p => val (c2 row2 p)) (fun p q => val (s p q))
        (fun p q => val (C p q)) (fun m => val (E m)) := by
  refine ⟨_, C99_calcJ T h1 h2 hP hS hE hc orbtype orbnum t1 t2 o1 o2 s1 s2 r1 r2, ?_⟩
  rw [← val_zetaA R.zero, ← val_zetaB R.zero]
  exact report_accurate R ..

/-- C105 (no error at all): exact operations give the exact numbers. -/
theorem C105_exact {r : Report α} {P N M : Int} {zA zB : Int → K} {s C : Int → Int → K} {E : Int → K}
    (h : Accurate 0 val r P N M zA zB s C E) (hS : overlapAB M (QC.proj P N zA s C) (QC.proj P N zB s C) ^ 2 ≠ 1) :
    val r.jab = couplingJ M (QC.proj P N zA s C) (QC.proj P N zB s C) E ∧ val r.ea = siteEnergy M (QC.proj P N zA s C) E ∧
    val r.eb = siteEnergy M (QC.proj P N zB s C) E ∧ val r.sab = overlapAB M (QC.proj P N zA s C) (QC.proj P N zB s C) ∧
    val r.jeff = QC.coupling M (QC.proj P N zA s C) (QC.proj P N zB s C) E := by
  have g : ∀ n, growth (0 : K) n = 0 := fun n => by simp [growth]
  have z : ∀ {x y w : K} {n : Nat}, |x - y| ≤ growth 0 n * w → x = y := by
    intro x y w n hx
    rw [g, MulZeroClass.zero_mul] at hx
    exact sub_eq_zero.1 (abs_eq_zero.1 (le_antisymm hx (abs_nonneg _)))
  refine ⟨z h.jab, z h.ea, z h.eb, z h.sab, ?_⟩
  have hj := h.jeff rfl rfl rfl rfl rfl rfl rfl (by
    rw [g, MulZeroClass.zero_mul]
    exact abs_pos.2 (sub_ne_zero.2 (Ne.symm hS))) rfl
  simp only [g, MulZeroClass.zero_mul, MulZeroClass.mul_zero, zero_div, add_zero] at hj
  exact sub_eq_zero.1 (abs_eq_zero.1 (le_antisymm hj (abs_nonneg _)))

end

section
variable {α β K : Type} [Zero α] [One α] [Add α] [Sub α] [Mul α] [Div α] [Num α] [DecidableEq β] (D : Type) [Args.Dbl D]
  [Field K] [LinearOrder K] [IsStrictOrderedRing K] {e : K} {val : α → K}

/-- C105 (from the command line and the files, no counterpoise): calc_J prints numbers that are accurate up to the accumulated rounding
errors. -/
theorem C105_numbers (R : Rounds e val) (tos : α → β) (files : Str → Option Str) {args : List Str} {as : List Asg} (hi : Intelligible args as)
    {file : Str → Str} (hf : FilesMeant files as file) (cp : turnedOn (lit "--counter_poise") as = false)
    {spinP spin1 spin2 : Log.Spin} (sP : askedSpin as (lit "--spin_P") = spinP.name) (s1 : askedSpin as (lit "--spin_1") = spin1.name)
    (s2 : askedSpin as (lit "--spin_2") = spin2.name)
    {orbs1 orbs2 : List (Orbital α)} {es1 es2 esP : List EnergyLine} {rows1 rows2 : List (α × α × α)} {b1 b2 : List Int} {C s : Int → Int → α}
    (m1 : MonomerFiles files (file (lit "--pun_1")) (file (lit "--log_1")) spin1 b1.sum orbs1 es1 rows1)
    (m2 : MonomerFiles files (file (lit "--pun_2")) (file (lit "--log_2")) spin2 b2.sum orbs2 es2 rows2)
    (d : DimerFiles tos files (file (lit "--pun_P")) (file (lit "--log_P")) spinP (rows1 ++ rows2) (b1 ++ b2) (energies esP).length C s esP)
    (hb1 : ∀ b ∈ b1, 1 ≤ b) (hb2 : ∀ b ∈ b2, 1 ≤ b) (l1 : b1.length = rows1.length) (l2 : b2.length = rows2.length)
    (ne1 : rows1 ≠ []) (ne2 : rows2 ≠ [])
    {n1 n2 row1 row2 : Int} (a1 : AskedNum as (lit "--orbital_num_1") n1) (a2 : AskedNum as (lit "--orbital_num_2") n2)
    (r1 : NamesOrbital ((energies es1).length, occupied es1) (askedType as (lit "--orbital_type_1")) n1 row1)
    (r2 : NamesOrbital ((energies es2).length, occupied es2) (askedType as (lit "--orbital_type_2")) n2 row2)
    (hr1 : 1 ≤ row1 ∧ row1 ≤ orbs1.length) (hr2 : 1 ≤ row2 ∧ row2 ≤ orbs2.length) :
    ∃ par r, Ends (fun fuel => calcJRun D tos files fuel args) (.ok (par, r)) ∧
      Accurate e val r (b1 ++ b2).sum (b1 ++ b2).sum (energies esP).length (zetaA false b1.sum fun p => val (coefOf orbs1 row1 p))
        (zetaB false b1.sum fun p => val (coefOf orbs2 row2 p)) (fun p q => val (s p q)) (fun p q => val (C p q)) (fun m => val (energyOf esP m)) := by
  obtain ⟨par, h⟩ := C103_numbers D tos files hi hf cp sP s1 s2 m1 m2 d hb1 hb2 l1 l2 ne1 ne2 a1 a2 r1 r2 hr1 hr2
  refine ⟨par, _, h, ?_⟩
  rw [← val_zetaA R.zero, ← val_zetaB R.zero]
  exact report_accurate R ..

/-- C105 (counterpoise). -/
theorem C105_numbers_cp (R : Rounds e val) (tos : α → β) (files : Str → Option Str) {args : List Str} {as : List Asg} (hi : Intelligible args as)
    {file : Str → Str} (hf : FilesMeant files as file) (cp : turnedOn (lit "--counter_poise") as = true)
    {spinP spin1 spin2 : Log.Spin} (sP : askedSpin as (lit "--spin_P") = spinP.name) (s1 : askedSpin as (lit "--spin_1") = spin1.name)
    (s2 : askedSpin as (lit "--spin_2") = spin2.name)
    {orbs1 : List (Orbital α)} {es1 es2 esP : List EnergyLine} {rows : List (α × α × α)} {basis : List Int} {N2 : Nat} {c2 C s : Int → Int → α}
    (m1 : MonomerFiles files (file (lit "--pun_1")) (file (lit "--log_1")) spin1 basis.sum orbs1 es1 rows)
    (m2 : ListedFiles tos files (file (lit "--pun_2")) (file (lit "--log_2")) spin2 rows basis N2 c2 es2)
    (d : DimerFiles tos files (file (lit "--pun_P")) (file (lit "--log_P")) spinP rows basis (energies esP).length C s esP)
    (hb : ∀ b ∈ basis, 1 ≤ b) (hl : basis.length = rows.length) (ne : rows ≠ [])
    {n1 n2 row1 row2 : Int} (a1 : AskedNum as (lit "--orbital_num_1") n1) (a2 : AskedNum as (lit "--orbital_num_2") n2)
    (r1 : NamesOrbital ((energies es1).length, occupied es1) (askedType as (lit "--orbital_type_1")) n1 row1)
    (r2 : NamesOrbital ((energies es2).length, occupied es2) (askedType as (lit "--orbital_type_2")) n2 row2)
    (hr1 : 1 ≤ row1 ∧ row1 ≤ orbs1.length) (hr2 : 1 ≤ row2 ∧ row2 ≤ N2) :
    ∃ par r, Ends (fun fuel => calcJRun D tos files fuel args) (.ok (par, r)) ∧
      Accurate e val r basis.sum basis.sum (energies esP).length (fun p => val (coefOf orbs1 row1 p)) (fun p => val (c2 row2 p))
        (fun p q => val (s p q)) (fun p q => val (C p q)) (fun m => val (energyOf esP m)) := by
  obtain ⟨par, h⟩ := C103_numbers_cp D tos files hi hf cp sP s1 s2 m1 m2 d hb hl ne a1 a2 r1 r2 hr1 hr2
  exact ⟨par, _, h, report_accurate R ..⟩

end
end Verif
