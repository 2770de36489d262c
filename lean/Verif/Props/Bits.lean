import Verif.Props.Symmetry
/-
Properties C100 and C101: what does not depend on rounding.
-/
namespace Verif
open Strings Readers QC Mat Log Pun Job

section
variable {α β : Type} [Zero α] [One α] [Add α] [Sub α] [Mul α] [Div α] [Num α] [DecidableEq β] {D : Type} [Args.Dbl D]

/-- C99 (files in any order, no counterpoise): the numbers printed for complete output files. -/
theorem C99_files (tos : α → β) (files : Str → Option Str) (args : List Str) {q : Args.Parser D} {par : Params.Params}
    (hq : Args.parse (fsOf files) Args.calcJ args = .ok q) (hpar : Args.prepareParameters q = .ok par) (cp : par.counterPoise = false)
    {spinP spin1 spin2 : Log.Spin} (sP : par.spinP = spinP.name) (s1 : par.spin1 = spin1.name) (s2 : par.spin2 = spin2.name)
    {orbs1 orbs2 : List (Orbital α)} {es1 es2 esP : List EnergyLine} {rows1 rows2 : List (α × α × α)} {b1 b2 : List Int} {C s : Int → Int → α}
    (m1 : MonomerFiles files par.pun1 par.log1 spin1 b1.sum orbs1 es1 rows1)
    (m2 : MonomerFiles files par.pun2 par.log2 spin2 b2.sum orbs2 es2 rows2)
    (d : DimerFiles tos files par.punP par.logP spinP (rows1 ++ rows2) (b1 ++ b2) (energies esP).length C s esP)
    (hb1 : ∀ b ∈ b1, 1 ≤ b) (hb2 : ∀ b ∈ b2, 1 ≤ b) (l1 : b1.length = rows1.length) (l2 : b2.length = rows2.length)
    (ne1 : rows1 ≠ []) (ne2 : rows2 ≠ [])
    {row1 row2 : Int} (r1 : NamesOrbital ((energies es1).length, occupied es1) par.orbType1 par.orbNum1 row1)
    (r2 : NamesOrbital ((energies es2).length, occupied es2) par.orbType2 par.orbNum2 row2)
    (hr1 : 1 ≤ row1 ∧ row1 ≤ orbs1.length) (hr2 : 1 ≤ row2 ∧ row2 ≤ orbs2.length) :
    Ends (fun fuel => calcJRun D tos files fuel args)
      (.ok (par, Machine.jobReport false (coefOf orbs1 row1) (coefOf orbs2 row2) b1.sum (energies esP).length (b1 ++ b2).sum C s esP)) := by
  obtain ⟨o1, h1, bo1, x1, cnt1⟩ := m1
  obtain ⟨o2, h2, bo2, x2, cnt2⟩ := m2
  obtain ⟨oP, orbsP, rowsP, order, S, hP, bP, hM, xP, hre, cntP, hC, hS, hs⟩ := d
  have hb : ∀ b ∈ b1 ++ b2, 1 ≤ b := fun b h => (List.mem_append.1 h).elim (hb1 b) (hb2 b)
  have n1pos : 1 ≤ b1.sum := QC.sum_pos hb1 (by intro e; rw [e] at l1; exact ne1 (List.eq_nil_of_length_eq_zero l1.symm))
  have n2pos : 1 ≤ b2.sum := QC.sum_pos hb2 (by intro e; rw [e] at l2; exact ne2 (List.eq_nil_of_length_eq_zero l2.symm))
  have hsum : (b1 ++ b2).sum = b1.sum + b2.sum := by simp
  have hn : (((b1 ++ b2).sum.toNat : Nat) : Int) = (b1 ++ b2).sum := Int.toNat_of_nonneg (by omega)
  have key := C99_aligned tos files args hq hpar cp hP h1 h2 sP s1 s2 (by rw [hn]; exact bP) bo1 bo2 (n := (b1 ++ b2).sum.toNat) (by omega)
    n1pos n2pos hM hS xP x1 x2 (by rw [cp]; simp only [Conforming]; rw [hn]; simp [hsum]) r1 r2 hr1 hr2 (basis := b1 ++ b2) hb
    (by simp [l1, l2]) hn ne1 ne2 hre cntP cnt1 cnt2 hC hs
  rw [hn, hM] at key
  exact key

/-- C99 (files in any order, counterpoise). -/
theorem C99_files_cp (tos : α → β) (files : Str → Option Str) (args : List Str) {q : Args.Parser D} {par : Params.Params}
    (hq : Args.parse (fsOf files) Args.calcJ args = .ok q) (hpar : Args.prepareParameters q = .ok par) (cp : par.counterPoise = true)
    {spinP spin1 spin2 : Log.Spin} (sP : par.spinP = spinP.name) (s1 : par.spin1 = spin1.name) (s2 : par.spin2 = spin2.name)
    {orbs1 : List (Orbital α)} {es1 es2 esP : List EnergyLine} {rows : List (α × α × α)} {basis : List Int} {N2 : Nat} {c2 C s : Int → Int → α}
    (m1 : MonomerFiles files par.pun1 par.log1 spin1 basis.sum orbs1 es1 rows)
    (m2 : ListedFiles tos files par.pun2 par.log2 spin2 rows basis N2 c2 es2)
    (d : DimerFiles tos files par.punP par.logP spinP rows basis (energies esP).length C s esP)
    (hb : ∀ b ∈ basis, 1 ≤ b) (hl : basis.length = rows.length) (ne : rows ≠ [])
    {row1 row2 : Int} (r1 : NamesOrbital ((energies es1).length, occupied es1) par.orbType1 par.orbNum1 row1)
    (r2 : NamesOrbital ((energies es2).length, occupied es2) par.orbType2 par.orbNum2 row2)
    (hr1 : 1 ≤ row1 ∧ row1 ≤ orbs1.length) (hr2 : 1 ≤ row2 ∧ row2 ≤ N2) :
    Ends (fun fuel => calcJRun D tos files fuel args)
      (.ok (par, Machine.jobReport true (coefOf orbs1 row1) (c2 row2) basis.sum (energies esP).length basis.sum C s esP)) := by
  obtain ⟨o1, h1, bo1, x1, cnt1⟩ := m1
  obtain ⟨o2, orbs2, rows2, order2, h2, bo2, hN2, x2, hre2, cnt2, hC2⟩ := m2
  obtain ⟨oP, orbsP, rowsP, order, S, hP, bP, hM, xP, hre, cntP, hC, hS, hs⟩ := d
  have npos : 1 ≤ basis.sum := QC.sum_pos hb (by intro e; rw [e] at hl; exact ne (List.eq_nil_of_length_eq_zero hl.symm))
  have hn : ((basis.sum.toNat : Nat) : Int) = basis.sum := Int.toNat_of_nonneg (by omega)
  have key := C99_aligned_cp tos files args hq hpar cp hP h1 h2 sP s1 s2 (by rw [hn]; exact bP) bo1 bo2 (n := basis.sum.toNat) (by omega)
    npos npos hM hS xP x1 x2 (by rw [cp, hn]; simp [Conforming]) r1 r2 hr1 (by rw [hN2]; exact hr2) hb hl hn ne hre2 hre cntP cnt1 cnt2 hC2 hC hs
  rw [hn, hM] at key
  exact key

/-- C100 (no counterpoise): two pairs of output files of the same dimer, which differ in the order in which the atoms are listed. With
either, calc_J prints exactly the same numbers, bit for bit. -/
theorem C100_atom_order (tos : α → β) (files : Str → Option Str) (args args' : List Str) {q q' : Args.Parser D} {par : Params.Params} {pun' log' : Str}
    (hq : Args.parse (fsOf files) Args.calcJ args = .ok q) (hpar : Args.prepareParameters q = .ok par)
    (hq' : Args.parse (fsOf files) Args.calcJ args' = .ok q') (hpar' : Args.prepareParameters q' = .ok { par with punP := pun', logP := log' })
    (cp : par.counterPoise = false)
    {spinP spin1 spin2 : Log.Spin} (sP : par.spinP = spinP.name) (s1 : par.spin1 = spin1.name) (s2 : par.spin2 = spin2.name)
    {orbs1 orbs2 : List (Orbital α)} {es1 es2 esP : List EnergyLine} {rows1 rows2 : List (α × α × α)} {b1 b2 : List Int} {C s : Int → Int → α}
    (m1 : MonomerFiles files par.pun1 par.log1 spin1 b1.sum orbs1 es1 rows1)
    (m2 : MonomerFiles files par.pun2 par.log2 spin2 b2.sum orbs2 es2 rows2)
    (d : DimerFiles tos files par.punP par.logP spinP (rows1 ++ rows2) (b1 ++ b2) (energies esP).length C s esP)
    (d' : DimerFiles tos files pun' log' spinP (rows1 ++ rows2) (b1 ++ b2) (energies esP).length C s esP)
    (hb1 : ∀ b ∈ b1, 1 ≤ b) (hb2 : ∀ b ∈ b2, 1 ≤ b) (l1 : b1.length = rows1.length) (l2 : b2.length = rows2.length)
    (ne1 : rows1 ≠ []) (ne2 : rows2 ≠ [])
    {row1 row2 : Int} (r1 : NamesOrbital ((energies es1).length, occupied es1) par.orbType1 par.orbNum1 row1)
    (r2 : NamesOrbital ((energies es2).length, occupied es2) par.orbType2 par.orbNum2 row2)
    (hr1 : 1 ≤ row1 ∧ row1 ≤ orbs1.length) (hr2 : 1 ≤ row2 ∧ row2 ≤ orbs2.length) :
    ∃ r : Report α, Ends (fun fuel => calcJRun D tos files fuel args) (.ok (par, r)) ∧
      Ends (fun fuel => calcJRun D tos files fuel args') (.ok ({ par with punP := pun', logP := log' }, r)) :=
  ⟨_, C99_files tos files args hq hpar cp sP s1 s2 m1 m2 d hb1 hb2 l1 l2 ne1 ne2 r1 r2 hr1 hr2,
    C99_files tos files args' hq' hpar' cp sP s1 s2 m1 m2 d' hb1 hb2 l1 l2 ne1 ne2 r1 r2 hr1 hr2⟩

/-- C100 (counterpoise): also the files of the second monomer may be replaced by files that list the atoms in another order. -/
theorem C100_atom_order_cp (tos : α → β) (files : Str → Option Str) (args args' : List Str) {q q' : Args.Parser D} {par : Params.Params}
    {pun2' log2' pun' log' : Str}
    (hq : Args.parse (fsOf files) Args.calcJ args = .ok q) (hpar : Args.prepareParameters q = .ok par)
    (hq' : Args.parse (fsOf files) Args.calcJ args' = .ok q')
    (hpar' : Args.prepareParameters q' = .ok { par with pun2 := pun2', log2 := log2', punP := pun', logP := log' })
    (cp : par.counterPoise = true)
    {spinP spin1 spin2 : Log.Spin} (sP : par.spinP = spinP.name) (s1 : par.spin1 = spin1.name) (s2 : par.spin2 = spin2.name)
    {orbs1 : List (Orbital α)} {es1 es2 esP : List EnergyLine} {rows : List (α × α × α)} {basis : List Int} {N2 : Nat} {c2 C s : Int → Int → α}
    (m1 : MonomerFiles files par.pun1 par.log1 spin1 basis.sum orbs1 es1 rows)
    (m2 : ListedFiles tos files par.pun2 par.log2 spin2 rows basis N2 c2 es2)
    (m2' : ListedFiles tos files pun2' log2' spin2 rows basis N2 c2 es2)
    (d : DimerFiles tos files par.punP par.logP spinP rows basis (energies esP).length C s esP)
    (d' : DimerFiles tos files pun' log' spinP rows basis (energies esP).length C s esP)
    (hb : ∀ b ∈ basis, 1 ≤ b) (hl : basis.length = rows.length) (ne : rows ≠ [])
    {row1 row2 : Int} (r1 : NamesOrbital ((energies es1).length, occupied es1) par.orbType1 par.orbNum1 row1)
    (r2 : NamesOrbital ((energies es2).length, occupied es2) par.orbType2 par.orbNum2 row2)
    (hr1 : 1 ≤ row1 ∧ row1 ≤ orbs1.length) (hr2 : 1 ≤ row2 ∧ row2 ≤ N2) :
    ∃ r : Report α, Ends (fun fuel => calcJRun D tos files fuel args) (.ok (par, r)) ∧
      Ends (fun fuel => calcJRun D tos files fuel args') (.ok ({ par with pun2 := pun2', log2 := log2', punP := pun', logP := log' }, r)) :=
  ⟨_, C99_files_cp tos files args hq hpar cp sP s1 s2 m1 m2 d hb hl ne r1 r2 hr1 hr2,
    C99_files_cp tos files args' hq' hpar' cp sP s1 s2 m1 m2' d' hb hl ne r1 r2 hr1 hr2⟩

end

/-! ### signs -/

namespace Machine
variable {α : Type} [Zero α] [One α] [Add α] [Sub α] [Mul α] [Div α]

omit [One α] [Sub α] [Mul α] [Div α] in
theorem sum_congr {a b : Int → α} (n : Nat) (h : ∀ k : Int, 1 ≤ k → k ≤ n → a k = b k) : sum a n = sum b n := by
  induction n with
  | zero => rfl
  | succ n ih =>
    simp only [sum]
    rw [ih (fun k k1 k2 => h k k1 (by omega)), h _ (by omega) (by omega)]

omit [One α] [Sub α] [Div α] in
theorem dot_congr {n : Int} {a b a' b' : Int → α} (h : ∀ k, 1 ≤ k → k ≤ n → a k * b k = a' k * b' k) : dot n a b = dot n a' b' :=
  sum_congr _ fun k k1 k2 => h k k1 (by omega)

variable [Neg α] [SignLaws α]

theorem sum_neg (a : Int → α) (n : Nat) : sum (fun k => - a k) n = - sum a n := by
  induction n with
  | zero => exact (SignLaws.neg_zero).symm
  | succ n ih => simp only [sum]; rw [ih, SignLaws.neg_add]

theorem dot_neg_left (n : Int) (a b : Int → α) : dot n (fun k => - a k) b = - dot n a b := by
  unfold dot
  rw [← sum_neg]
  exact sum_congr _ fun k _ _ => SignLaws.neg_mul _ _

theorem dot_neg_right (n : Int) (a b : Int → α) : dot n a (fun k => - b k) = - dot n a b := by
  unfold dot
  rw [← sum_neg]
  exact sum_congr _ fun k _ _ => SignLaws.mul_neg _ _

/-- A sum with one term other than 0. -/
theorem sum_single (k : Int) (t : Int → α) (n : Nat) : sum (fun l => if k = l then t l else 0) n = if 1 ≤ k ∧ k ≤ n then t k else 0 := by
  induction n with
  | zero => simp only [sum]; rw [if_neg (by omega)]
  | succ n ih =>
    simp only [sum]
    rw [ih]
    by_cases h : k = n + 1
    · rw [if_neg (by omega), if_pos h, if_pos (by omega), SignLaws.zero_add, h]
    · rw [if_neg h, SignLaws.add_zero]
      by_cases h' : 1 ≤ k ∧ k ≤ n
      · rw [if_pos h', if_pos (by omega)]
      · rw [if_neg h', if_neg (by omega)]

/-- The product with the diagonal matrix is exact: each line is multiplied by its energy. -/
theorem weighted_eq {M : Int} (E g : Int → α) {k : Int} (k1 : 1 ≤ k) (k2 : k ≤ M) : weighted M E g k = E k * g k := by
  unfold weighted dot
  rw [sum_congr (b := fun l => if k = l then E k * g l else 0) _ (by
    intro l _ _
    by_cases h : k = l
    · simp [h]
    · simp only [if_neg h]; exact SignLaws.zero_mul _), sum_single, if_pos (by omega)]

/-- Change of sign. -/
def flip (b : Bool) (x : α) : α := if b then -x else x

theorem flip_mul_left (b : Bool) (x y : α) : flip b x * y = flip b (x * y) := by
  cases b <;> simp [flip, SignLaws.neg_mul]

theorem flip_mul_right (b : Bool) (x y : α) : x * flip b y = flip b (x * y) := by
  cases b <;> simp [flip, SignLaws.mul_neg]

theorem flip_flip (b : Bool) (x : α) : flip b (flip b x) = x := by
  cases b <;> simp [flip, SignLaws.neg_neg]

theorem proj_flip (K N : Int) (z : Int → α) (S C : Int → Int → α) (σ : Int → Bool) (m : Int) :
    proj K N z S (fun i j => flip (σ i) (C i j)) m = flip (σ m) (proj K N z S C m) := by
  unfold proj
  simp only
  cases h : σ m
  · simp [flip]
  · simp only [flip, if_true]
    rw [← dot_neg_right]
    refine dot_congr fun p _ _ => ?_
    rw [← dot_neg_right]

theorem proj_neg (K N : Int) (z : Int → α) (S C : Int → Int → α) (m : Int) :
    proj K N (fun p => - z p) S C m = - proj K N z S C m := dot_neg_left ..

theorem report_flip (M : Int) (gA gB E : Int → α) (σ : Int → Bool) :
    report M (fun m => flip (σ m) (gA m)) (fun m => flip (σ m) (gB m)) E = report M gA gB E := by
  have w : ∀ f g : Int → α, dot M (fun m => flip (σ m) (f m)) (weighted M E (fun m => flip (σ m) (g m))) = dot M f (weighted M E g) := by
    intro f g
    refine dot_congr fun k k1 k2 => ?_
    rw [weighted_eq _ _ k1 k2, weighted_eq _ _ k1 k2, flip_mul_right, flip_mul_right, flip_mul_left, flip_flip]
  have s : dot M (fun m => flip (σ m) (gB m)) (fun m => flip (σ m) (gA m)) = dot M gB gA :=
    dot_congr fun k _ _ => by rw [flip_mul_right, flip_mul_left, flip_flip]
  unfold report
  simp only [w, s]

/-- The numbers when the sign of one of the two orbitals is changed. -/
def changeSign (r : Report α) : Report α := ⟨-r.jab, r.ea, r.eb, -r.sab, -r.jeff⟩

omit [Neg α] [SignLaws α] in
theorem report_congr {M : Int} {gA gB gA' gB' E : Int → α} (hA : ∀ m, gA m = gA' m) (hB : ∀ m, gB m = gB' m) :
    report M gA gB E = report M gA' gB' E := by
  rw [show gA = gA' from funext hA, show gB = gB' from funext hB]

theorem weighted_neg {M : Int} (E g : Int → α) {k : Int} (k1 : 1 ≤ k) (k2 : k ≤ M) :
    weighted M E (fun m => - g m) k = - weighted M E g k := by
  rw [weighted_eq _ _ k1 k2, weighted_eq _ _ k1 k2, SignLaws.mul_neg]

theorem report_neg_left (M : Int) (gA gB E : Int → α) : report M (fun m => - gA m) gB E = changeSign (report M gA gB E) := by
  have j : dot M gB (weighted M E (fun m => - gA m)) = - dot M gB (weighted M E gA) := by
    rw [← dot_neg_right]; exact dot_congr fun k k1 k2 => by rw [weighted_neg _ _ k1 k2]
  have a : dot M (fun m => - gA m) (weighted M E (fun m => - gA m)) = dot M gA (weighted M E gA) :=
    dot_congr fun k k1 k2 => by rw [weighted_neg _ _ k1 k2, SignLaws.neg_mul, SignLaws.mul_neg, SignLaws.neg_neg]
  unfold report changeSign
  simp only [j, a, dot_neg_right, SignLaws.mul_neg, SignLaws.neg_mul, SignLaws.neg_neg, SignLaws.neg_sub, SignLaws.neg_div]

theorem report_neg_right (M : Int) (gA gB E : Int → α) : report M gA (fun m => - gB m) E = changeSign (report M gA gB E) := by
  have b : dot M (fun m => - gB m) (weighted M E (fun m => - gB m)) = dot M gB (weighted M E gB) :=
    dot_congr fun k k1 k2 => by rw [weighted_neg _ _ k1 k2, SignLaws.neg_mul, SignLaws.mul_neg, SignLaws.neg_neg]
  unfold report changeSign
  simp only [b, dot_neg_left, SignLaws.mul_neg, SignLaws.neg_mul, SignLaws.neg_neg, SignLaws.neg_sub, SignLaws.neg_div]

theorem zetaA_neg (cp : Bool) (n1 : Int) (u : Int → α) (p : Int) : zetaA cp n1 (fun j => - u j) p = - zetaA cp n1 u p := by
  unfold zetaA
  cases cp
  · by_cases h : p ≤ n1
    · simp [h]
    · simp [h, SignLaws.neg_zero]
  · simp

theorem zetaB_neg (cp : Bool) (n1 : Int) (u : Int → α) (p : Int) : zetaB cp n1 (fun j => - u j) p = - zetaB cp n1 u p := by
  unfold zetaB
  cases cp
  · by_cases h : p ≤ n1
    · simp [h, SignLaws.neg_zero]
    · simp [h]
  · simp

variable [Num α]

theorem jobReport_flip (cp : Bool) (u v : Int → α) (n1 M n : Int) (C s : Int → Int → α) (es : List EnergyLine) (σ : Int → Bool) :
    jobReport cp u v n1 M n (fun i j => flip (σ i) (C i j)) s es = jobReport cp u v n1 M n C s es := by
  unfold jobReport
  rw [← report_flip M (proj n n (zetaA cp n1 u) s C) (proj n n (zetaB cp n1 v) s C) (energyOf es) σ]
  exact report_congr (fun m => proj_flip ..) (fun m => proj_flip ..)

theorem jobReport_neg_left (cp : Bool) (u v : Int → α) (n1 M n : Int) (C s : Int → Int → α) (es : List EnergyLine) :
    jobReport cp (fun j => - u j) v n1 M n C s es = changeSign (jobReport cp u v n1 M n C s es) := by
  unfold jobReport
  rw [← report_neg_left]
  refine report_congr (fun m => ?_) (fun _ => rfl)
  rw [show zetaA cp n1 (fun j => - u j) = fun p => - zetaA cp n1 u p from funext fun p => zetaA_neg ..]
  exact proj_neg ..

theorem jobReport_neg_right (cp : Bool) (u v : Int → α) (n1 M n : Int) (C s : Int → Int → α) (es : List EnergyLine) :
    jobReport cp u (fun j => - v j) n1 M n C s es = changeSign (jobReport cp u v n1 M n C s es) := by
  unfold jobReport
  rw [← report_neg_right]
  refine report_congr (fun _ => rfl) (fun m => ?_)
  rw [show zetaB cp n1 (fun j => - v j) = fun p => - zetaB cp n1 v p from funext fun p => zetaB_neg ..]
  exact proj_neg ..

end Machine

section
variable {α β : Type} [Zero α] [One α] [Add α] [Sub α] [Mul α] [Div α] [Neg α] [Machine.SignLaws α] [Num α] [DecidableEq β] {D : Type} [Args.Dbl D]

/-- C101 (phases of the dimer orbitals, no counterpoise): two pairs of output files of the same dimer. They may differ in the sign of any
of the dimer's orbitals (`σ` says which are reversed), and in the order of the atoms. With either, calc_J prints exactly the same numbers,
in exact and in rounded arithmetic. -/
theorem C101_dimer_phases (tos : α → β) (files : Str → Option Str) (args args' : List Str) {q q' : Args.Parser D} {par : Params.Params} {pun' log' : Str}
    (hq : Args.parse (fsOf files) Args.calcJ args = .ok q) (hpar : Args.prepareParameters q = .ok par)
    (hq' : Args.parse (fsOf files) Args.calcJ args' = .ok q') (hpar' : Args.prepareParameters q' = .ok { par with punP := pun', logP := log' })
    (cp : par.counterPoise = false)
    {spinP spin1 spin2 : Log.Spin} (sP : par.spinP = spinP.name) (s1 : par.spin1 = spin1.name) (s2 : par.spin2 = spin2.name)
    {orbs1 orbs2 : List (Orbital α)} {es1 es2 esP : List EnergyLine} {rows1 rows2 : List (α × α × α)} {b1 b2 : List Int} {C s : Int → Int → α}
    (m1 : MonomerFiles files par.pun1 par.log1 spin1 b1.sum orbs1 es1 rows1)
    (m2 : MonomerFiles files par.pun2 par.log2 spin2 b2.sum orbs2 es2 rows2)
    (σ : Int → Bool)
    (d : DimerFiles tos files par.punP par.logP spinP (rows1 ++ rows2) (b1 ++ b2) (energies esP).length C s esP)
    (d' : DimerFiles tos files pun' log' spinP (rows1 ++ rows2) (b1 ++ b2) (energies esP).length
      (fun i j => if σ i then - C i j else C i j) s esP)
    (hb1 : ∀ b ∈ b1, 1 ≤ b) (hb2 : ∀ b ∈ b2, 1 ≤ b) (l1 : b1.length = rows1.length) (l2 : b2.length = rows2.length)
    (ne1 : rows1 ≠ []) (ne2 : rows2 ≠ [])
    {row1 row2 : Int} (r1 : NamesOrbital ((energies es1).length, occupied es1) par.orbType1 par.orbNum1 row1)
    (r2 : NamesOrbital ((energies es2).length, occupied es2) par.orbType2 par.orbNum2 row2)
    (hr1 : 1 ≤ row1 ∧ row1 ≤ orbs1.length) (hr2 : 1 ≤ row2 ∧ row2 ≤ orbs2.length) :
    ∃ r : Report α, Ends (fun fuel => calcJRun D tos files fuel args) (.ok (par, r)) ∧
      Ends (fun fuel => calcJRun D tos files fuel args') (.ok ({ par with punP := pun', logP := log' }, r)) := by
  refine ⟨_, C99_files tos files args hq hpar cp sP s1 s2 m1 m2 d hb1 hb2 l1 l2 ne1 ne2 r1 r2 hr1 hr2, ?_⟩
  rw [← Machine.jobReport_flip _ _ _ _ _ _ _ _ _ σ]
  exact C99_files tos files args' hq' hpar' cp sP s1 s2 m1 m2 d' hb1 hb2 l1 l2 ne1 ne2 r1 r2 hr1 hr2

/-- C101 (phases of the dimer orbitals, counterpoise). -/
theorem C101_dimer_phases_cp (tos : α → β) (files : Str → Option Str) (args args' : List Str) {q q' : Args.Parser D} {par : Params.Params} {pun' log' : Str}
    (hq : Args.parse (fsOf files) Args.calcJ args = .ok q) (hpar : Args.prepareParameters q = .ok par)
    (hq' : Args.parse (fsOf files) Args.calcJ args' = .ok q') (hpar' : Args.prepareParameters q' = .ok { par with punP := pun', logP := log' })
    (cp : par.counterPoise = true)
    {spinP spin1 spin2 : Log.Spin} (sP : par.spinP = spinP.name) (s1 : par.spin1 = spin1.name) (s2 : par.spin2 = spin2.name)
    {orbs1 : List (Orbital α)} {es1 es2 esP : List EnergyLine} {rows : List (α × α × α)} {basis : List Int} {N2 : Nat} {c2 C s : Int → Int → α}
    (m1 : MonomerFiles files par.pun1 par.log1 spin1 basis.sum orbs1 es1 rows)
    (m2 : ListedFiles tos files par.pun2 par.log2 spin2 rows basis N2 c2 es2)
    (σ : Int → Bool)
    (d : DimerFiles tos files par.punP par.logP spinP rows basis (energies esP).length C s esP)
    (d' : DimerFiles tos files pun' log' spinP rows basis (energies esP).length (fun i j => if σ i then - C i j else C i j) s esP)
    (hb : ∀ b ∈ basis, 1 ≤ b) (hl : basis.length = rows.length) (ne : rows ≠ [])
    {row1 row2 : Int} (r1 : NamesOrbital ((energies es1).length, occupied es1) par.orbType1 par.orbNum1 row1)
    (r2 : NamesOrbital ((energies es2).length, occupied es2) par.orbType2 par.orbNum2 row2)
    (hr1 : 1 ≤ row1 ∧ row1 ≤ orbs1.length) (hr2 : 1 ≤ row2 ∧ row2 ≤ N2) :
    ∃ r : Report α, Ends (fun fuel => calcJRun D tos files fuel args) (.ok (par, r)) ∧
      Ends (fun fuel => calcJRun D tos files fuel args') (.ok ({ par with punP := pun', logP := log' }, r)) := by
  refine ⟨_, C99_files_cp tos files args hq hpar cp sP s1 s2 m1 m2 d hb hl ne r1 r2 hr1 hr2, ?_⟩
  rw [← Machine.jobReport_flip _ _ _ _ _ _ _ _ _ σ]
  exact C99_files_cp tos files args' hq' hpar' cp sP s1 s2 m1 m2 d' hb hl ne r1 r2 hr1 hr2

/-- Orbital `row` of the second list has the coefficients of orbital `row` of the first, with the opposite sign. -/
def Reversed (orbs orbs' : List (Orbital α)) (row : Int) : Prop :=
  orbs'.length = orbs.length ∧ (orbs'[(row - 1).toNat]?).map Orbital.coefs = (orbs[(row - 1).toNat]?).map (fun o => o.coefs.map (- ·))

omit [Num α] in
theorem Reversed.coef {orbs orbs' : List (Orbital α)} {row : Int} (h : Reversed orbs orbs' row) :
    coefOf orbs' row = fun j => - coefOf orbs row j := by
  funext j
  have h := h.2
  unfold coefOf
  simp only [List.getD_eq_getElem?_getD, List.getElem?_map] at h ⊢
  cases h1 : orbs[(row - 1).toNat]? with
  | none =>
    cases h2 : orbs'[(row - 1).toNat]? with
    | none => simp [Machine.SignLaws.neg_zero]
    | some o => rw [h1, h2] at h; simp at h
  | some o =>
    cases h2 : orbs'[(row - 1).toNat]? with
    | none => rw [h1, h2] at h; simp at h
    | some o' =>
      rw [h1, h2] at h
      simp only [Option.map_some, Option.some.injEq] at h
      simp only [Option.map_some, Option.getD_some, h, List.getElem?_map]
      cases o.coefs[(j - 1).toNat]? <;> simp [Machine.SignLaws.neg_zero]

/-- C101 (phase of the orbital of monomer 1): the files of monomer 1 are replaced by files in which the orbital asked for has the
opposite sign. Then J_ab, S_ab and J_eff change their sign and the site energies stay the same, in exact and in rounded arithmetic. -/
theorem C101_first_phase (tos : α → β) (files : Str → Option Str) (args args' : List Str) {q q' : Args.Parser D} {par : Params.Params} {pun' log' : Str}
    (hq : Args.parse (fsOf files) Args.calcJ args = .ok q) (hpar : Args.prepareParameters q = .ok par)
    (hq' : Args.parse (fsOf files) Args.calcJ args' = .ok q') (hpar' : Args.prepareParameters q' = .ok { par with pun1 := pun', log1 := log' })
    (cp : par.counterPoise = false)
    {spinP spin1 spin2 : Log.Spin} (sP : par.spinP = spinP.name) (s1 : par.spin1 = spin1.name) (s2 : par.spin2 = spin2.name)
    {orbs1 orbs1' orbs2 : List (Orbital α)} {es1 es2 esP : List EnergyLine} {rows1 rows2 : List (α × α × α)} {b1 b2 : List Int} {C s : Int → Int → α}
    (m1 : MonomerFiles files par.pun1 par.log1 spin1 b1.sum orbs1 es1 rows1)
    (m1' : MonomerFiles files pun' log' spin1 b1.sum orbs1' es1 rows1)
    (m2 : MonomerFiles files par.pun2 par.log2 spin2 b2.sum orbs2 es2 rows2)
    (d : DimerFiles tos files par.punP par.logP spinP (rows1 ++ rows2) (b1 ++ b2) (energies esP).length C s esP)
    (hb1 : ∀ b ∈ b1, 1 ≤ b) (hb2 : ∀ b ∈ b2, 1 ≤ b) (l1 : b1.length = rows1.length) (l2 : b2.length = rows2.length)
    (ne1 : rows1 ≠ []) (ne2 : rows2 ≠ [])
    {row1 row2 : Int} (r1 : NamesOrbital ((energies es1).length, occupied es1) par.orbType1 par.orbNum1 row1)
    (r2 : NamesOrbital ((energies es2).length, occupied es2) par.orbType2 par.orbNum2 row2)
    (hr1 : 1 ≤ row1 ∧ row1 ≤ orbs1.length) (hr2 : 1 ≤ row2 ∧ row2 ≤ orbs2.length) (rev : Reversed orbs1 orbs1' row1) :
    ∃ jab ea eb sab jeff : α, Ends (fun fuel => calcJRun D tos files fuel args) (.ok (par, ⟨jab, ea, eb, sab, jeff⟩)) ∧
      Ends (fun fuel => calcJRun D tos files fuel args') (.ok ({ par with pun1 := pun', log1 := log' }, ⟨-jab, ea, eb, -sab, -jeff⟩)) := by
  refine ⟨_, _, _, _, _, C99_files tos files args hq hpar cp sP s1 s2 m1 m2 d hb1 hb2 l1 l2 ne1 ne2 r1 r2 hr1 hr2, ?_⟩
  have key := C99_files tos files args' hq' hpar' cp sP s1 s2 m1' m2 d hb1 hb2 l1 l2 ne1 ne2 r1 r2 (by rw [rev.1]; exact hr1) hr2
  rw [rev.coef, Machine.jobReport_neg_left] at key
  exact key

/-- C101 (phase of the orbital of monomer 2). -/
theorem C101_second_phase (tos : α → β) (files : Str → Option Str) (args args' : List Str) {q q' : Args.Parser D} {par : Params.Params} {pun' log' : Str}
    (hq : Args.parse (fsOf files) Args.calcJ args = .ok q) (hpar : Args.prepareParameters q = .ok par)
    (hq' : Args.parse (fsOf files) Args.calcJ args' = .ok q') (hpar' : Args.prepareParameters q' = .ok { par with pun2 := pun', log2 := log' })
    (cp : par.counterPoise = false)
    {spinP spin1 spin2 : Log.Spin} (sP : par.spinP = spinP.name) (s1 : par.spin1 = spin1.name) (s2 : par.spin2 = spin2.name)
    {orbs1 orbs2 orbs2' : List (Orbital α)} {es1 es2 esP : List EnergyLine} {rows1 rows2 : List (α × α × α)} {b1 b2 : List Int} {C s : Int → Int → α}
    (m1 : MonomerFiles files par.pun1 par.log1 spin1 b1.sum orbs1 es1 rows1)
    (m2 : MonomerFiles files par.pun2 par.log2 spin2 b2.sum orbs2 es2 rows2)
    (m2' : MonomerFiles files pun' log' spin2 b2.sum orbs2' es2 rows2)
    (d : DimerFiles tos files par.punP par.logP spinP (rows1 ++ rows2) (b1 ++ b2) (energies esP).length C s esP)
    (hb1 : ∀ b ∈ b1, 1 ≤ b) (hb2 : ∀ b ∈ b2, 1 ≤ b) (l1 : b1.length = rows1.length) (l2 : b2.length = rows2.length)
    (ne1 : rows1 ≠ []) (ne2 : rows2 ≠ [])
    {row1 row2 : Int} (r1 : NamesOrbital ((energies es1).length, occupied es1) par.orbType1 par.orbNum1 row1)
    (r2 : NamesOrbital ((energies es2).length, occupied es2) par.orbType2 par.orbNum2 row2)
    (hr1 : 1 ≤ row1 ∧ row1 ≤ orbs1.length) (hr2 : 1 ≤ row2 ∧ row2 ≤ orbs2.length) (rev : Reversed orbs2 orbs2' row2) :
    ∃ jab ea eb sab jeff : α, Ends (fun fuel => calcJRun D tos files fuel args) (.ok (par, ⟨jab, ea, eb, sab, jeff⟩)) ∧
      Ends (fun fuel => calcJRun D tos files fuel args') (.ok ({ par with pun2 := pun', log2 := log' }, ⟨-jab, ea, eb, -sab, -jeff⟩)) := by
  refine ⟨_, _, _, _, _, C99_files tos files args hq hpar cp sP s1 s2 m1 m2 d hb1 hb2 l1 l2 ne1 ne2 r1 r2 hr1 hr2, ?_⟩
  have key := C99_files tos files args' hq' hpar' cp sP s1 s2 m1 m2' d hb1 hb2 l1 l2 ne1 ne2 r1 r2 hr1 (by rw [rev.1]; exact hr2)
  rw [rev.coef, Machine.jobReport_neg_right] at key
  exact key

/-- C101 (phase of the orbital of monomer 1, counterpoise). -/
theorem C101_first_phase_cp (tos : α → β) (files : Str → Option Str) (args args' : List Str) {q q' : Args.Parser D} {par : Params.Params} {pun' log' : Str}
    (hq : Args.parse (fsOf files) Args.calcJ args = .ok q) (hpar : Args.prepareParameters q = .ok par)
    (hq' : Args.parse (fsOf files) Args.calcJ args' = .ok q') (hpar' : Args.prepareParameters q' = .ok { par with pun1 := pun', log1 := log' })
    (cp : par.counterPoise = true)
    {spinP spin1 spin2 : Log.Spin} (sP : par.spinP = spinP.name) (s1 : par.spin1 = spin1.name) (s2 : par.spin2 = spin2.name)
    {orbs1 orbs1' : List (Orbital α)} {es1 es2 esP : List EnergyLine} {rows : List (α × α × α)} {basis : List Int} {N2 : Nat} {c2 C s : Int → Int → α}
    (m1 : MonomerFiles files par.pun1 par.log1 spin1 basis.sum orbs1 es1 rows)
    (m1' : MonomerFiles files pun' log' spin1 basis.sum orbs1' es1 rows)
    (m2 : ListedFiles tos files par.pun2 par.log2 spin2 rows basis N2 c2 es2)
    (d : DimerFiles tos files par.punP par.logP spinP rows basis (energies esP).length C s esP)
    (hb : ∀ b ∈ basis, 1 ≤ b) (hl : basis.length = rows.length) (ne : rows ≠ [])
    {row1 row2 : Int} (r1 : NamesOrbital ((energies es1).length, occupied es1) par.orbType1 par.orbNum1 row1)
    (r2 : NamesOrbital ((energies es2).length, occupied es2) par.orbType2 par.orbNum2 row2)
    (hr1 : 1 ≤ row1 ∧ row1 ≤ orbs1.length) (hr2 : 1 ≤ row2 ∧ row2 ≤ N2) (rev : Reversed orbs1 orbs1' row1) :
    ∃ jab ea eb sab jeff : α, Ends (fun fuel => calcJRun D tos files fuel args) (.ok (par, ⟨jab, ea, eb, sab, jeff⟩)) ∧
      Ends (fun fuel => calcJRun D tos files fuel args') (.ok ({ par with pun1 := pun', log1 := log' }, ⟨-jab, ea, eb, -sab, -jeff⟩)) := by
  refine ⟨_, _, _, _, _, C99_files_cp tos files args hq hpar cp sP s1 s2 m1 m2 d hb hl ne r1 r2 hr1 hr2, ?_⟩
  have key := C99_files_cp tos files args' hq' hpar' cp sP s1 s2 m1' m2 d hb hl ne r1 r2 (by rw [rev.1]; exact hr1) hr2
  rw [rev.coef, Machine.jobReport_neg_left] at key
  exact key

/-- C101 (phase of the orbital of monomer 2, counterpoise): here the files of monomer 2 may list the atoms in another order than before. -/
theorem C101_second_phase_cp (tos : α → β) (files : Str → Option Str) (args args' : List Str) {q q' : Args.Parser D} {par : Params.Params} {pun' log' : Str}
    (hq : Args.parse (fsOf files) Args.calcJ args = .ok q) (hpar : Args.prepareParameters q = .ok par)
    (hq' : Args.parse (fsOf files) Args.calcJ args' = .ok q') (hpar' : Args.prepareParameters q' = .ok { par with pun2 := pun', log2 := log' })
    (cp : par.counterPoise = true)
    {spinP spin1 spin2 : Log.Spin} (sP : par.spinP = spinP.name) (s1 : par.spin1 = spin1.name) (s2 : par.spin2 = spin2.name)
    {orbs1 : List (Orbital α)} {es1 es2 esP : List EnergyLine} {rows : List (α × α × α)} {basis : List Int} {N2 : Nat} {c2 c2' C s : Int → Int → α}
    (m1 : MonomerFiles files par.pun1 par.log1 spin1 basis.sum orbs1 es1 rows)
    (m2 : ListedFiles tos files par.pun2 par.log2 spin2 rows basis N2 c2 es2)
    (m2' : ListedFiles tos files pun' log' spin2 rows basis N2 c2' es2)
    (d : DimerFiles tos files par.punP par.logP spinP rows basis (energies esP).length C s esP)
    (hb : ∀ b ∈ basis, 1 ≤ b) (hl : basis.length = rows.length) (ne : rows ≠ [])
    {row1 row2 : Int} (r1 : NamesOrbital ((energies es1).length, occupied es1) par.orbType1 par.orbNum1 row1)
    (r2 : NamesOrbital ((energies es2).length, occupied es2) par.orbType2 par.orbNum2 row2)
    (hr1 : 1 ≤ row1 ∧ row1 ≤ orbs1.length) (hr2 : 1 ≤ row2 ∧ row2 ≤ N2) (rev : ∀ j, c2' row2 j = - c2 row2 j) :
    ∃ jab ea eb sab jeff : α, Ends (fun fuel => calcJRun D tos files fuel args) (.ok (par, ⟨jab, ea, eb, sab, jeff⟩)) ∧
      Ends (fun fuel => calcJRun D tos files fuel args') (.ok ({ par with pun2 := pun', log2 := log' }, ⟨-jab, ea, eb, -sab, -jeff⟩)) := by
  refine ⟨_, _, _, _, _, C99_files_cp tos files args hq hpar cp sP s1 s2 m1 m2 d hb hl ne r1 r2 hr1 hr2, ?_⟩
  have key := C99_files_cp tos files args' hq' hpar' cp sP s1 s2 m1 m2' d hb hl ne r1 r2 hr1 hr2
  rw [show c2' row2 = fun j => - c2 row2 j from funext rev, Machine.jobReport_neg_right] at key
  exact key

end
end Verif
