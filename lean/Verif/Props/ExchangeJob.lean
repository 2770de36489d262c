import Verif.Props.Exchange
/-
C149 for command lines: the monomers exchanged, with rounding errors.
-/
namespace Verif
open Strings Readers QC Mat Log Pun Job Args Machine

theorem swapped_basis (b1 b2 : List Int) : reorderedBasis (b1 ++ b2) (swapOrder b1.length b2.length) = b2 ++ b1 := by
  apply List.ext_getElem?
  intro k
  unfold reorderedBasis
  rw [List.getElem?_map]
  by_cases h : k < b1.length + b2.length
  · rw [swapOrder_get h]
    simp only [Option.map_some]
    by_cases hk : k < b2.length
    · rw [if_pos hk, List.getElem?_append_left hk, List.getD_eq_getElem?_getD, List.getElem?_append_right (by omega),
        show ((b1.length : Int) + 1 + k - 1).toNat - b1.length = k by omega, List.getElem?_eq_getElem hk]
      rfl
    · rw [if_neg hk, List.getElem?_append_right (by omega), List.getD_eq_getElem?_getD, List.getElem?_append_left (by omega),
        show ((k : Int) - b2.length + 1 - 1).toNat = k - b2.length by omega, List.getElem?_eq_getElem (by omega)]
      rfl
  · have l : (swapOrder b1.length b2.length).length = b1.length + b2.length := by rw [swapOrder_length]
    rw [List.getElem?_eq_none (by omega), List.getElem?_eq_none (by rw [List.length_append]; omega)]
    rfl

section
variable {α β : Type} [Mul α] [Num α] [Zero α]

/-- The dimer's files serve both ways: listed in the order of monomer 2 before monomer 1, the columns are exchanged accordingly. -/
theorem Job.DimerFiles.exchange {tos : α → β} {files : Str → Option Str} {pun log : Str} {spin : Log.Spin} {rows1 rows2 : List (α × α × α)} {b1 b2 : List Int}
    {M : Nat} {C s : Int → Int → α} {es : List EnergyLine} (d : DimerFiles tos files pun log spin (rows1 ++ rows2) (b1 ++ b2) M C s es)
    (hb1 : ∀ b ∈ b1, 1 ≤ b) (hb2 : ∀ b ∈ b2, 1 ≤ b) (l1 : b1.length = rows1.length) (l2 : b2.length = rows2.length) :
    DimerFiles tos files pun log spin (rows2 ++ rows1) (b2 ++ b1) M (fun m q => C m (colMap (b1 ++ b2) (swapOrder b1.length b2.length) q))
      (fun p q => s (colMap (b1 ++ b2) (swapOrder b1.length b2.length) p) (colMap (b1 ++ b2) (swapOrder b1.length b2.length) q)) es := by
  obtain ⟨o, orbs, rows, order, S, st, ob, ln, lc, re, bc, ca, lo, ba⟩ := d
  have hb : ∀ b ∈ b1 ++ b2, 1 ≤ b := fun b h => (List.mem_append.1 h).elim (hb1 b) (hb2 b)
  have bl : (b1 ++ b2).length = (rows1 ++ rows2).length := by simp [l1, l2]
  have ho : order.Perm (irange 1 (b1 ++ b2).length) := by rw [bl]; exact re.perm
  have hu0 := swapOrder_undoes b1.length b2.length
  have hu : Undoes (b1 ++ b2).length (swapOrder b1.length b2.length) (swapOrder b2.length b1.length) := by
    rw [List.length_append]; exact hu0
  have hs : (b2 ++ b1).sum = (b1 ++ b2).sum := by rw [List.sum_append, List.sum_append, add_comm]
  have hc := Job.ColumnsAs.renumber hb hu ho ca
  have hd := Job.BothAs.renumber hb hu ho ba
  have hbc := reorderedBasis_renumbered hu ho
  rw [swapped_basis] at hc hd hbc
  refine ⟨o, orbs, rows, order.map (oldNumber (swapOrder b2.length b1.length)), S, st, by rw [hs]; exact ob, ln, lc, ?_, by rw [hbc]; exact bc, hc,
    by rw [hs]; exact lo, hd⟩
  refine Job.Reordered.renumber re (r := swapOrder b1.length b2.length) (by rw [← bl]; exact hu) (by simp; omega) ?_
  intro k a x y hk hx hy
  have hkl : k < b1.length + b2.length := by
    have := (List.getElem?_eq_some_iff.1 hk).1
    rwa [swapOrder_length] at this
  rw [swapOrder_get hkl] at hk
  have hk := Option.some.inj hk
  have : x = y := by
    by_cases hkk : k < b2.length
    · rw [if_pos hkk] at hk
      rw [List.getElem?_append_left (by omega)] at hx
      rw [List.getElem?_append_right (by omega), show (a - 1).toNat - rows1.length = k by omega, hx] at hy
      exact Option.some.inj hy
    · rw [if_neg hkk] at hk
      rw [List.getElem?_append_right (by omega)] at hx
      rw [List.getElem?_append_left (by omega), show (a - 1).toNat = k - rows2.length by omega, hx] at hy
      exact Option.some.inj hy
  subst this
  exact ⟨rfl, rfl, rfl⟩

end

section
variable {α K : Type} [Zero α] [One α] [Add α] [Sub α] [Mul α] [Div α] [Num α] [Field K] [LinearOrder K] [IsStrictOrderedRing K] {e : K} {val : α → K}
variable {β : Type} [DecidableEq β] {D : Type} [Args.Dbl D]

/-- C149 (command lines, no counterpoise): the files are those of a job with command line `args` as in C105; a command line that names them with the monomers
exchanged, and the same orbitals, prints a report that, exchanged back, has the accuracy guaranteed for the report of the original command line. -/
theorem C149_numbers (R : Rounds e val) (tos : α → β) (files : Str → Option Str) {args args' : List Str} {as as' : List Asg}
    (hi : Intelligible args as) (hi' : Intelligible args' as')
    {file file' : Str → Str} (hf : FilesMeant files as file) (hf' : FilesMeant files as' file')
    (cp : turnedOn (lit "--counter_poise") as = false) (cp' : turnedOn (lit "--counter_poise") as' = false)
    {spinP spin1 spin2 : Log.Spin} (sP : askedSpin as (lit "--spin_P") = spinP.name) (s1 : askedSpin as (lit "--spin_1") = spin1.name)
    (s2 : askedSpin as (lit "--spin_2") = spin2.name)
    (sP' : askedSpin as' (lit "--spin_P") = spinP.name) (s1' : askedSpin as' (lit "--spin_1") = spin2.name)
    (s2' : askedSpin as' (lit "--spin_2") = spin1.name)
    (fP : file' (lit "--pun_P") = file (lit "--pun_P") ∧ file' (lit "--log_P") = file (lit "--log_P"))
    (f1 : file' (lit "--pun_1") = file (lit "--pun_2") ∧ file' (lit "--log_1") = file (lit "--log_2"))
    (f2 : file' (lit "--pun_2") = file (lit "--pun_1") ∧ file' (lit "--log_2") = file (lit "--log_1"))
    {orbs1 orbs2 : List (Orbital α)} {es1 es2 esP : List EnergyLine} {rows1 rows2 : List (α × α × α)} {b1 b2 : List Int} {C s : Int → Int → α}
    (m1 : MonomerFiles files (file (lit "--pun_1")) (file (lit "--log_1")) spin1 b1.sum orbs1 es1 rows1)
    (m2 : MonomerFiles files (file (lit "--pun_2")) (file (lit "--log_2")) spin2 b2.sum orbs2 es2 rows2)
    (d : DimerFiles tos files (file (lit "--pun_P")) (file (lit "--log_P")) spinP (rows1 ++ rows2) (b1 ++ b2) (energies esP).length C s esP)
    (hb1 : ∀ b ∈ b1, 1 ≤ b) (hb2 : ∀ b ∈ b2, 1 ≤ b) (l1 : b1.length = rows1.length) (l2 : b2.length = rows2.length)
    (ne1 : rows1 ≠ []) (ne2 : rows2 ≠ [])
    {n1 n2 n1' n2' row1 row2 : Int} (a1 : AskedNum as (lit "--orbital_num_1") n1) (a2 : AskedNum as (lit "--orbital_num_2") n2)
    (a1' : AskedNum as' (lit "--orbital_num_1") n1') (a2' : AskedNum as' (lit "--orbital_num_2") n2')
    (r1 : NamesOrbital ((energies es1).length, occupied es1) (askedType as (lit "--orbital_type_1")) n1 row1)
    (r2 : NamesOrbital ((energies es2).length, occupied es2) (askedType as (lit "--orbital_type_2")) n2 row2)
    (r1' : NamesOrbital ((energies es2).length, occupied es2) (askedType as' (lit "--orbital_type_1")) n1' row2)
    (r2' : NamesOrbital ((energies es1).length, occupied es1) (askedType as' (lit "--orbital_type_2")) n2' row1)
    (hr1 : 1 ≤ row1 ∧ row1 ≤ orbs1.length) (hr2 : 1 ≤ row2 ∧ row2 ≤ orbs2.length) :
    ∃ par par' r r', Ends (fun fuel => calcJRun D tos files fuel args) (.ok (par, r)) ∧ Ends (fun fuel => calcJRun D tos files fuel args') (.ok (par', r')) ∧
      Accurate e val r (b1 ++ b2).sum (b1 ++ b2).sum (energies esP).length (zetaA false b1.sum fun p => val (coefOf orbs1 row1 p))
        (zetaB false b1.sum fun p => val (coefOf orbs2 row2 p)) (fun p q => val (s p q)) (fun p q => val (C p q)) (fun m => val (energyOf esP m)) ∧
      Accurate e val (exchange r') (b1 ++ b2).sum (b1 ++ b2).sum (energies esP).length (zetaA false b1.sum fun p => val (coefOf orbs1 row1 p))
        (zetaB false b1.sum fun p => val (coefOf orbs2 row2 p)) (fun p q => val (s p q)) (fun p q => val (C p q)) (fun m => val (energyOf esP m)) := by
  obtain ⟨par, r, h, k⟩ := C105_numbers (D := D) R tos files hi hf cp sP s1 s2 m1 m2 d hb1 hb2 l1 l2 ne1 ne2 a1 a2 r1 r2 hr1 hr2
  obtain ⟨par', r', h', k'⟩ := C105_numbers (D := D) R tos files hi' hf' cp' sP' s1' s2' (by rw [f1.1, f1.2]; exact m2) (by rw [f2.1, f2.2]; exact m1)
    (by rw [fP.1, fP.2]; exact d.exchange hb1 hb2 l1 l2) hb2 hb1 l2 l1 ne2 ne1 a1' a2' r1' r2' hr2 hr1
  refine ⟨par, par', r, r', h, h', k, ?_⟩
  have n1pos : 1 ≤ b1.sum := QC.sum_pos hb1 (by intro e; rw [e] at l1; exact ne1 (List.eq_nil_of_length_eq_zero l1.symm))
  have n2pos : 1 ≤ b2.sum := QC.sum_pos hb2 (by intro e; rw [e] at l2; exact ne2 (List.eq_nil_of_length_eq_zero l2.symm))
  have hs : (b2 ++ b1).sum = b1.sum + b2.sum := by rw [List.sum_append, add_comm]
  rw [hs] at k'
  rw [List.sum_append]
  have hπ : ∀ p, 1 ≤ p → p ≤ b1.sum + b2.sum → colMap (b1 ++ b2) (swapOrder b1.length b2.length) p = blockSwap b1.sum b2.sum p :=
    fun p => colMap_swap hb1 hb2
  have a := proj_blocks n1pos n2pos hπ (fun p => val (coefOf orbs1 row1 p)) (fun p => val (coefOf orbs2 row2 p)) (fun p q => val (s p q)) (fun p q => val (C p q))
  have b := proj_blocks n1pos n2pos hπ (size1 fun p => val (coefOf orbs1 row1 p)) (size1 fun p => val (coefOf orbs2 row2 p)) (size2 fun p q => val (s p q))
    (size2 fun p q => val (C p q))
  refine accurate_exchange k' a.2.symm a.1.symm ?_ ?_
  · rw [size_zetaB _ _ _ abs_zero, size_zetaA _ _ _ abs_zero]; exact b.2.symm
  · rw [size_zetaB _ _ _ abs_zero, size_zetaA _ _ _ abs_zero]; exact b.1.symm

end
end Verif
