import Verif.Spec.IntsJob
import Verif.IntsJobLemmas
import Verif.Props.Consistent
import Verif.Props.Ints
import Mathlib.Tactic.ByContra
import Verif.Props.EveryLine
/-
Property C125: below a stated size no `int` overflows anywhere in the calculation of calc_J.
-/
namespace Verif.Ints
open Strings Readers QC Args Run
variable {α β : Type}

theorem getRow_any [Zero α] {m : Mat α} (h1 : 1 ≤ m.rows) (h2 : m.rows ≤ 46340) (h3 : 0 ≤ m.cols) (h4 : m.cols ≤ 46340) (h5 : m.shel = 1)
    (R : Int) : getRow m R = m.getRow R := by
  by_cases hc : 1 ≤ m.cols
  · exact getRow_eq (Within.sized ⟨h1, h2, hc, h4, h5⟩) R
  · unfold getRow Mat.getRow
    split
    · rfl
    refine bind_eq (mk3_eq fun _ b _ => absurd b hc) fun t ht => ?_
    exact absurd (mk3_dims ht).2.1 hc

theorem diag_any [Zero α] {m : Mat α} {n : Nat} (hd : Dims n 1 1 m) (hn : n ≤ 46340) :
    Ints.diag m = m.diag ∧ ∀ t, m.diag = .ok t → Within t := by
  by_cases h0 : 1 ≤ n
  · have w : Within m := .of hd (by omega) (by omega) (by omega) (by omega)
    exact ⟨w.diag_eq, fun t e => w.diag e⟩
  · have hr : m.rows = 0 := by rw [hd.1]; omega
    have hc := hd.2.1
    have hs := hd.2.2
    have room : Room m := ⟨by omega, by rw [hr, hc, hs]; omega⟩
    constructor
    · unfold Ints.diag Mat.diag
      rw [if_neg (by omega), if_neg (by omega), if_pos (by omega), if_neg (by omega), if_neg (by omega), if_pos (by omega), hc]
      refine bind_eq (mk2_eq fun _ _ => by omega) fun t ht => ?_
      obtain ⟨-, -, hd⟩ := mk2_dims ht
      refine loop_eq (Dims 1 1 1) (by omega) (by omega) hd (fun i t i1 i2 hd => ?_) (fun i t t' hd e => ?_)
      · refine bind_eq (getElem2_room room 1 i) fun v _ => ?_
        exact setElem2_eq (hd.sized (by omega) (by omega) (by omega) (by omega)) v i i
      · obtain ⟨v, -, e⟩ := Res.bind_eq_ok.1 e
        exact hd.set2 e
    · intro t e
      unfold Mat.diag at e
      rw [if_neg (by omega), if_neg (by omega), if_pos (by omega), hc] at e
      obtain ⟨t0, ht, e⟩ := Res.bind_eq_ok.1 e
      obtain ⟨-, -, hd⟩ := mk2_dims ht
      refine .of (r := 1) (c := 1) ?_ (by omega) (by omega) (by omega) (by omega)
      refine forRange_post (Dims 1 1 1) hd (fun i t t' hd e => ?_) e
      obtain ⟨v, -, e⟩ := Res.bind_eq_ok.1 e
      exact hd.set2 e

/-- What `calcJ` needs to know of a matrix of monomer coefficients: possibly no columns. -/
def Coefs (m : Mat α) : Prop := 1 ≤ m.rows ∧ m.rows ≤ 46340 ∧ 0 ≤ m.cols ∧ m.cols ≤ 46340 ∧ m.shel = 1

theorem calcJReport_of [Zero α] [One α] [Add α] [Sub α] [Mul α] [Div α] (T : TransferComplex α)
    (h1 : Coefs T.coef1) (h2 : Coefs T.coef2) (hP : Within T.coefP) (hS : Within T.S)
    (hE : Ints.diag T.oe = T.oe.diag) (hE' : ∀ t, T.oe.diag = .ok t → Within t)
    (fit : T.cp = false → T.coef1.cols + T.coef2.cols ≤ 46340)
    (o1 : 0 ≤ T.orbs1.2 ∧ T.orbs1.2 ≤ T.orbs1.1 ∧ T.orbs1.1 ≤ 2147483647) (o2 : 0 ≤ T.orbs2.2 ∧ T.orbs2.2 ≤ T.orbs2.1 ∧ T.orbs2.1 ≤ 2147483647)
    (orbtype : Str → Option Str) (orbnum : Str → Option Int) (hn : ∀ k n, orbnum k = some n → -2147483648 ≤ n ∧ n ≤ 2147483647) :
    calcJReport T orbtype orbnum = T.calcJReport orbtype orbnum := by
  have hat : ∀ {k n}, mapAt orbnum k = .ok n → -2147483648 ≤ n ∧ n ≤ 2147483647 := by
    intro k n h
    unfold mapAt at h
    split at h
    · rename_i v hv
      cases h
      exact hn k _ hv
    · cases h
  have row : ∀ {m r : Mat α} {orbs kind n}, Coefs m → QC.selectRow m orbs kind n = .ok r → Within r ∧ r.cols = m.cols := by
    intro m r orbs kind n hm e
    have q := selectRow_dims e
    rw [hm.2.2.2.2] at q
    have pos : 1 ≤ m.cols := by
      have : ∃ R, m.getRow R = .ok r := by
        unfold QC.selectRow at e
        repeat' split at e
        all_goals first | cases e | exact ⟨_, e⟩
      obtain ⟨R, e⟩ := this
      unfold Mat.getRow at e
      split at e
      · cases e
      obtain ⟨t, ht, -⟩ := Res.bind_eq_ok.1 e
      exact (mk3_dims ht).2.1
    exact ⟨.of q (by omega) (by omega) pos hm.2.2.2.1, q.2.1⟩
  unfold calcJReport TransferComplex.calcJReport
  refine bind_eq rfl fun d1 e1 => bind_eq rfl fun d2 e2 => bind_eq rfl fun k1 _ => bind_eq rfl fun n1 en1 => ?_
  refine bind_eq (selectRow_of (getRow_any h1.1 h1.2.1 h1.2.2.1 h1.2.2.2.1 h1.2.2.2.2) o1.1 o1.2.1 o1.2.2 k1 (hat en1)) fun r1 er1 => ?_
  obtain ⟨w1, q1⟩ := row h1 er1
  refine bind_eq (assign_eq (Within.default e1).sized w1.sized) fun m1 em1 => ?_
  refine bind_eq rfl fun k2 _ => bind_eq rfl fun n2 en2 => ?_
  refine bind_eq (selectRow_of (getRow_any h2.1 h2.2.1 h2.2.2.1 h2.2.2.2.1 h2.2.2.2.2) o2.1 o2.2.1 o2.2.2 k2 (hat en2)) fun r2 er2 => ?_
  obtain ⟨w2, q2⟩ := row h2 er2
  refine bind_eq (assign_eq (Within.default e2).sized w2.sized) fun m2 em2 => ?_
  refine transferReport_of T.cp (w1.assign em1) (w2.assign em2) hP hS hE hE' fun hcp => ?_
  rw [(assign_dims em1).2.1, (assign_dims em2).2.1, q1, q2]
  exact fit hcp

theorem newComplex_eq {coef1 coef2 coefP : Mat α} {orbs1 orbs2 : Int × Int} {S oe : Mat α} {cp : Bool} (h1 : Coefs coef1) (h2 : Coefs coef2) :
    newComplex coef1 coef2 coefP orbs1 orbs2 S oe cp = TransferComplex.new coef1 coef2 coefP orbs1 orbs2 S oe cp := by
  unfold newComplex TransferComplex.new
  split
  · rfl
  dsimp only
  split
  · rfl
  unfold add
  obtain ⟨-, -, a, b, -⟩ := h1
  obtain ⟨-, -, c, d, -⟩ := h2
  rw [fit_ok (by omega) (by omega)]
  rfl

/-- What the constructor of the complex checks, and makes. -/
theorem new_ok {coef1 coef2 coefP : Mat α} {orbs1 orbs2 : Int × Int} {S oe : Mat α} {cp : Bool} {T : TransferComplex α}
    (e : TransferComplex.new coef1 coef2 coefP orbs1 orbs2 S oe cp = .ok T) :
    T = ⟨coef1, coef2, coefP, orbs1, orbs2, S, oe, false, cp⟩ ∧ S.cols = coefP.cols ∧
    (cp = true → coef1.cols = coefP.cols ∧ coef2.cols = coefP.cols) ∧ (cp = false → coef1.cols + coef2.cols ≤ coefP.cols) := by
  unfold TransferComplex.new at e
  split at e
  · cases e
  rename_i hS
  have hS : S.cols = coefP.cols := by omega
  dsimp only at e
  split at e
  · rename_i hcp
    split at e
    · cases e
    split at e
    · cases e
    cases e
    exact ⟨rfl, hS, fun _ => ⟨by omega, by omega⟩, fun h => by rw [h] at hcp; cases hcp⟩
  · rename_i hcp
    split at e
    · cases e
    cases e
    exact ⟨rfl, hS, fun h => absurd h hcp, fun _ => by omega⟩

/-- A matrix of coordinates: three rows, a column for each atom. -/
def Coords (m : Mat α) : Prop := m.rows = 3 ∧ 0 ≤ m.cols ∧ m.cols ≤ 46340 ∧ m.shel = 1

theorem Coords.room {m : Mat α} (h : Coords m) : Room m := by
  obtain ⟨a, b, c, d⟩ := h
  exact ⟨by omega, by rw [a, d]; omega⟩

theorem Coords.matchCol_eq [DecidableEq β] (tos : α → β) {m mat : Mat α} (h : Coords m) (h' : Coords mat) :
    matchCol tos m mat = Mat.matchCol tos m mat :=
  Ints.matchCol_eq tos h.room h'.room (by have := h.1; omega) (by have := h.2.2.1; omega) (by have := h'.2.2.1; omega)

theorem Coords.matches [DecidableEq β] (tos : α → β) {m mat : Mat α} (h : Coords m) (h' : Coords mat) {l : List Int}
    (e : Mat.matchCol tos m mat = .ok l) : Matches l := by
  obtain ⟨r, n⟩ := matchCol_range tos e
  have := h.2.2.1
  have := h'.2.2.1
  refine ⟨by omega, fun x hx => ?_⟩
  have := r x hx
  omega

theorem unscramble_eq [Zero α] [DecidableEq β] (tos : α → β) {T : TransferComplex α} (h2 : T.cp = true → Within T.coef2) (hP : Within T.coefP)
    (hS : Within T.S) {coord1 coord2 coordP : Mat α} (c1 : Coords coord1) (c2 : Coords coord2) (cP : Coords coordP)
    {basisP basis2 : List Int} (bP : Sizes basisP) (b2 : Sizes basis2) :
    unscramble tos T coord1 coord2 coordP basisP basis2 = T.unscramble tos coord1 coord2 coordP basisP basis2 := by
  unfold unscramble TransferComplex.unscramble
  split
  · rename_i hcp
    refine bind_eq (c1.matchCol_eq tos c2) fun l12 e12 => ?_
    refine bind_eq (unscrambleCoef1_eq (c1.matches tos c2 e12) b2 (h2 hcp)) fun t2 _ => ?_
    refine bind_eq (c1.matchCol_eq tos cP) fun l1P e1P => ?_
    refine bind_eq (unscrambleCoef1_eq (c1.matches tos cP e1P) bP hP) fun tP _ => ?_
    exact bind_eq (unscrambleS1_eq (c1.matches tos cP e1P) bP hS) fun _ _ => rfl
  · refine bind_eq (c1.matchCol_eq tos cP) fun l1P e1P => ?_
    refine bind_eq (c2.matchCol_eq tos cP) fun l2P e2P => ?_
    refine bind_eq (unscrambleCoef2_eq (c1.matches tos cP e1P) (c2.matches tos cP e2P) bP hP) fun tP _ => ?_
    exact bind_eq (unscrambleS2_eq (c1.matches tos cP e1P) (c2.matches tos cP e2P) bP hS) fun _ _ => rfl

/-- What unscrambling leaves as it was. -/
theorem unscramble_ok [Zero α] [DecidableEq β] (tos : α → β) {T T' : TransferComplex α} (h2 : T.cp = true → Within T.coef2) (hP : Within T.coefP)
    (hS : Within T.S) {coord1 coord2 coordP : Mat α} {basisP basis2 : List Int} (bP : Sizes basisP) (b2 : Sizes basis2)
    (e : T.unscramble tos coord1 coord2 coordP basisP basis2 = .ok T') :
    T'.coef1 = T.coef1 ∧ T'.orbs1 = T.orbs1 ∧ T'.orbs2 = T.orbs2 ∧ T'.oe = T.oe ∧ T'.cp = T.cp ∧ Within T'.coefP ∧ Within T'.S ∧
    (T'.coef2 = T.coef2 ∨ Within T'.coef2 ∧ T.cp = true) := by
  unfold TransferComplex.unscramble at e
  split at e
  · rename_i hcp
    obtain ⟨l12, e12, e⟩ := Res.bind_eq_ok.1 e
    obtain ⟨t2, et2, e⟩ := Res.bind_eq_ok.1 e
    obtain ⟨l1P, e1P, e⟩ := Res.bind_eq_ok.1 e
    obtain ⟨tP, etP, e⟩ := Res.bind_eq_ok.1 e
    obtain ⟨tS, etS, e⟩ := Res.bind_eq_ok.1 e
    cases e
    exact ⟨rfl, rfl, rfl, rfl, rfl, (regroup1_within bP hP etP).1, (unscrambleS1_within bP hS etS).1, .inr ⟨(regroup1_within b2 (h2 hcp) et2).1, hcp⟩⟩
  · obtain ⟨l1P, e1P, e⟩ := Res.bind_eq_ok.1 e
    obtain ⟨l2P, e2P, e⟩ := Res.bind_eq_ok.1 e
    obtain ⟨tP, etP, e⟩ := Res.bind_eq_ok.1 e
    obtain ⟨tS, etS, e⟩ := Res.bind_eq_ok.1 e
    cases e
    exact ⟨rfl, rfl, rfl, rfl, rfl, (regroup2_within bP hP etP).1, (unscrambleS2_within bP hS etS).1, .inl rfl⟩

section
variable [Mul α] [Num α] [Zero α]

theorem basis_sizes {files : Str → Option Str} {fuel : Nat} {name : Str} {d : LogData α} (h : readLog files fuel name = .ok d) (hd : SmallLog d) :
    Sizes d.getBasisFuncCount := by
  have hb := (C115_atoms files fuel name h).2
  refine ⟨fun x hx => by have := hb x hx; omega, hd.basis, ?_⟩
  have : ∀ l : List Int, (∀ x ∈ l, 1 ≤ x) → (l.length : Int) ≤ l.sum := by
    intro l
    induction l with
    | nil => intro _; simp
    | cons x l ih =>
      intro hl
      rw [List.length_cons, List.sum_cons]
      have := hl x (by simp)
      have := ih fun y hy => hl y (by simp [hy])
      push_cast
      omega
  have := this _ hb
  have := hd.basis
  omega

theorem coords_eq {files : Str → Option Str} {fuel : Nat} {name : Str} {d : LogData α} (h : readLog files fuel name = .ok d) (hd : SmallLog d) :
    ofVecVec d.getCoords = Mat.ofVecVec d.getCoords ∧ ∀ m, Mat.ofVecVec d.getCoords = .ok m → Coords m := by
  have ha := hd.atoms
  have hl : d.getCoords.length = 0 ∨ d.getCoords.length = 3 := by
    rcases (C115_atoms files fuel name h).1 with e | ⟨X, Y, Z, e, -⟩ <;> rw [e]
    · exact .inl rfl
    · exact .inr rfl
  constructor
  · refine ofVecVec_eq (by omega) (fun v hv => by have := ha v hv; omega) fun v hv => ?_
    have := ha v hv
    rcases hl with e | e <;> rw [e] <;> push_cast <;> omega
  · intro m e
    obtain ⟨v, hv, hm⟩ := ofVecVec_dims e
    have := ha v hv
    have hl : d.getCoords.length = 3 := by
      rcases hl with e | e
      · rw [List.length_eq_zero_iff.1 e] at hv; cases hv
      · exact e
    refine ⟨by rw [hm.1, hl]; rfl, by rw [hm.2.1]; omega, by rw [hm.2.1]; omega, hm.2.2⟩

omit [Zero α] in
theorem coefs_of {files : Str → Option Str} {fuel : Nat} {name : Str} {d : PunData α} (h : readPun files fuel name = .ok d) (hd : SmallPun d)
    {spin : Str} {m : Mat α} (e : d.getCoefsMatrix spin = .ok m) : Coefs m := by
  obtain ⟨-, h1, h2, h3, -⟩ := (C115_coefs files fuel name h).1 spin m e
  have := hd.coefs spin m e
  exact ⟨h1, this.1, h2, this.2, h3⟩

theorem levels {files : Str → Option Str} {fuel : Nat} {name : Str} {d : LogData α} (h : readLog files fuel name = .ok d) (hd : SmallLog d)
    {spin : Str} {n : Int} {es : List α} (hn : d.getHOMOLevel spin = .ok n) (he : d.getOE spin = .ok es) :
    0 ≤ n ∧ n ≤ es.length ∧ es.length ≤ 46340 := by
  rcases C115_energies files fuel name h spin with ⟨e, -⟩ | ⟨-, es', n', e1, e2, l⟩
  · rw [e] at he; cases he
  · rw [hn] at e2
    rw [he] at e1
    cases e1
    cases e2
    have := hd.energies spin es he
    omega

end

/-- **C125 (calculation).** Whatever the six files: if what was read from each of them is small, then in all of the calculation that follows -
the matrices of coefficients, energies and coordinates, the search for matching atoms, the exchange of blocks, the orbitals chosen and the
coupling - no `int` overflows, and the outcome is the one of the model with unbounded integers. The requested orbital numbers are any `int`s. -/
theorem C125_calculation [Zero α] [One α] [Add α] [Sub α] [Mul α] [Div α] [Num α] [DecidableEq β] (tos : α → β) (files : Str → Option Str) (fuel : Nat)
    {par : Params.Params} (n1 : -2 ^ 31 ≤ par.orbNum1 ∧ par.orbNum1 < 2 ^ 31) (n2 : -2 ^ 31 ≤ par.orbNum2 ∧ par.orbNum2 < 2 ^ 31)
    {prP pr1 pr2 : PunData α} {lrP lr1 lr2 : LogData α} (hr : readFiles files fuel par = .ok ((prP, pr1, pr2), (lrP, lr1, lr2)))
    (sP : SmallPun prP) (s1 : SmallPun pr1) (s2 : SmallPun pr2) (tP : SmallLog lrP) (t1 : SmallLog lr1) (t2 : SmallLog lr2) :
    Ints.couplingReport tos par prP pr1 pr2 lrP lr1 lr2 = Verif.couplingReport tos par prP pr1 pr2 lrP lr1 lr2 := by
  unfold readFiles at hr
  obtain ⟨a1, q1, hr⟩ := Res.bind_eq_ok.1 hr
  obtain ⟨a2, q2, hr⟩ := Res.bind_eq_ok.1 hr
  obtain ⟨a3, q3, hr⟩ := Res.bind_eq_ok.1 hr
  obtain ⟨a4, q4, hr⟩ := Res.bind_eq_ok.1 hr
  obtain ⟨a5, q5, hr⟩ := Res.bind_eq_ok.1 hr
  obtain ⟨a6, q6, hr⟩ := Res.bind_eq_ok.1 hr
  cases hr
  unfold Ints.couplingReport Verif.couplingReport
  refine bind_eq rfl fun S eS => ?_
  obtain ⟨S1, S2, S3, -⟩ := C115_overlap files fuel _ q4 eS
  have wS : Within S := ⟨S1, tP.overlap S eS, by omega, by rw [S2]; exact tP.overlap S eS, S3⟩
  refine bind_eq rfl fun coefP eP => ?_
  have hP := coefs_of q1 sP eP
  refine bind_eq rfl fun vP evP => ?_
  have lP := tP.energies _ _ evP
  refine bind_eq (ofVec_eq (by omega)) fun oeP eoP => ?_
  have dP := diag_any (ofVec_dims eoP) lP
  refine bind_eq rfl fun homo1 eh1 => ?_
  refine bind_eq rfl fun coef1 e1 => ?_
  have hc1 := coefs_of q2 s1 e1
  refine bind_eq rfl fun v1 ev1 => ?_
  have l1 := levels q5 t1 eh1 ev1
  refine bind_eq (ofVec_eq (by omega)) fun oe1 eo1 => ?_
  have d1 := ofVec_dims eo1
  refine bind_eq rfl fun homo2 eh2 => ?_
  refine bind_eq rfl fun coef2 e2 => ?_
  have hc2 := coefs_of q3 s2 e2
  refine bind_eq rfl fun v2 ev2 => ?_
  have l2 := levels q6 t2 eh2 ev2
  refine bind_eq (ofVec_eq (by omega)) fun oe2 eo2 => ?_
  have d2 := ofVec_dims eo2
  obtain ⟨xP, cP⟩ := coords_eq q4 tP
  obtain ⟨x1, c1⟩ := coords_eq q5 t1
  obtain ⟨x2, c2⟩ := coords_eq q6 t2
  refine bind_eq xP fun coordP ecP => ?_
  refine bind_eq x1 fun coord1 ec1 => ?_
  refine bind_eq x2 fun coord2 ec2 => ?_
  dsimp only
  refine bind_eq (newComplex_eq hc1 hc2) fun T eT => ?_
  obtain ⟨rfl, k1, k2, k3⟩ := new_ok eT
  have wP : Within coefP := ⟨hP.1, hP.2.1, by rw [← k1]; omega, hP.2.2.2.1, hP.2.2.2.2⟩
  have w2 : par.counterPoise = true → Within coef2 := fun h => ⟨hc2.1, hc2.2.1, by rw [(k2 h).2]; exact wP.2.2.1, hc2.2.2.2.1, hc2.2.2.2.2⟩
  have hn : ∀ k n, (Map.set (Map.set [] (lit "mon1") par.orbNum1) (lit "mon2") par.orbNum2 : Map Int).get k = some n → -2147483648 ≤ n ∧ n ≤ 2147483647 := by
    intro k n h
    rw [Map.get_set] at h
    split at h
    · cases h; omega
    · rw [Map.get_set] at h
      split at h
      · cases h; omega
      · cases h
  have last : ∀ T : TransferComplex α, T.coef1 = coef1 → T.orbs1 = (oe1.rows, homo1) → T.orbs2 = (oe2.rows, homo2) → T.oe = oeP → T.cp = par.counterPoise →
      Within T.coefP → Within T.S → (T.coef2 = coef2 ∨ Within T.coef2 ∧ par.counterPoise = true) → ∀ orbtype,
      Ints.calcJReport T orbtype (Map.set (Map.set [] (lit "mon1") par.orbNum1) (lit "mon2") par.orbNum2 : Map Int).get =
      T.calcJReport orbtype (Map.set (Map.set [] (lit "mon1") par.orbNum1) (lit "mon2") par.orbNum2 : Map Int).get := by
    intro T a1 a2 a3 a4 a5 a6 a7 a8 orbtype
    refine calcJReport_of T (by rw [a1]; exact hc1) ?_ a6 a7 (by rw [a4]; exact dP.1) (by rw [a4]; exact dP.2) ?_ ?_ ?_ orbtype _ hn
    · rcases a8 with a8 | ⟨a8, -⟩
      · rw [a8]; exact hc2
      · exact ⟨a8.1, a8.2.1, by have := a8.2.2.1; omega, a8.2.2.2.1, a8.2.2.2.2⟩
    · intro h
      rw [a5] at h
      rcases a8 with a8 | ⟨-, a8⟩
      · rw [a1, a8]
        have := k3 h
        have := wP.2.2.2.1
        omega
      · rw [h] at a8; cases a8
    · rw [a2]; dsimp only; rw [d1.1]; omega
    · rw [a3]; dsimp only; rw [d2.1]; omega
  by_cases hb : lr1.getBasisFuncCount.length ≠ 0 ∧ lr2.getBasisFuncCount.length ≠ 0 ∧ lrP.getBasisFuncCount.length ≠ 0
  · rw [if_pos hb, if_pos hb]
    have bP := basis_sizes q4 tP
    have b2 := basis_sizes q6 t2
    refine bind_eq (unscramble_eq tos w2 wP wS (c1 _ ec1) (c2 _ ec2) (cP _ ecP) bP b2) fun T' eT' => ?_
    obtain ⟨a1, a2, a3, a4, a5, a6, a7, a8⟩ := unscramble_ok tos w2 wP wS bP b2 eT'
    exact last T' a1 a2 a3 a4 a5 a6 a7 a8 _
  · rw [if_neg hb, if_neg hb]
    simp only [Res.ok_bind]
    exact last ⟨coef1, coef2, coefP, (oe1.rows, homo1), (oe2.rows, homo2), S, oeP, false, par.counterPoise⟩ rfl rfl rfl rfl rfl wP wS (.inl rfl) _

theorem energies_diag [Zero α] [One α] [Add α] [Sub α] [Mul α] [Div α] {coef1 coef2 coefP S oe : Mat α} {cp : Bool} {r : Report α}
    (h : Ints.transferReport coef1 coef2 coefP S oe cp = .ok r) : ∃ e, Ints.diag oe = .ok e := by
  unfold Ints.transferReport at h
  iterate 5
    obtain ⟨_, -, h⟩ := Res.bind_eq_ok.1 h
  obtain ⟨⟨_, _⟩, -, h⟩ := Res.bind_eq_ok.1 h
  iterate 8
    obtain ⟨_, -, h⟩ := Res.bind_eq_ok.1 h
  obtain ⟨e, he, h⟩ := Res.bind_eq_ok.1 h
  exact ⟨e, he⟩

/-- **C125 (limit).** The limit on the number of energies is sharp: with checked `int`s calc_J gives an answer only if the dimer has at most
46340 orbital energies of the spin asked for. -/
theorem C125_limit [Zero α] [One α] [Add α] [Sub α] [Mul α] [Div α] [DecidableEq β] (tos : α → β) {par : Params.Params}
    {prP pr1 pr2 : PunData α} {lrP lr1 lr2 : LogData α} {r : Report α} (h : Ints.couplingReport tos par prP pr1 pr2 lrP lr1 lr2 = .ok r) :
    ∃ es, lrP.getOE par.spinP = .ok es ∧ es.length ≤ 46340 := by
  unfold Ints.couplingReport at h
  obtain ⟨S, -, h⟩ := Res.bind_eq_ok.1 h
  obtain ⟨coefP, -, h⟩ := Res.bind_eq_ok.1 h
  obtain ⟨es, hes, h⟩ := Res.bind_eq_ok.1 h
  refine ⟨es, hes, ?_⟩
  obtain ⟨oe, hoe, h⟩ := Res.bind_eq_ok.1 h
  iterate 11
    obtain ⟨_, -, h⟩ := Res.bind_eq_ok.1 h
  dsimp only at h
  obtain ⟨T, hT, h⟩ := Res.bind_eq_ok.1 h
  have hT : T.oe = oe := by
    unfold newComplex at hT
    split at hT
    · cases hT
    dsimp only at hT
    split at hT
    · split at hT
      · cases hT
      split at hT
      · cases hT
      cases hT; rfl
    · obtain ⟨_, -, hT⟩ := Res.bind_eq_ok.1 hT
      split at hT
      · cases hT
      cases hT; rfl
  have key : ∃ (T : TransferComplex α) (k : Str → Option Str) (n : Str → Option Int), T.oe = oe ∧ Ints.calcJReport T k n = .ok r := by
    split at h
    · obtain ⟨T', hT', h⟩ := Res.bind_eq_ok.1 h
      refine ⟨T', _, _, ?_, h⟩
      rw [← hT]
      unfold Ints.unscramble at hT'
      split at hT'
      · iterate 5
          obtain ⟨_, -, hT'⟩ := Res.bind_eq_ok.1 hT'
        cases hT'; rfl
      · iterate 4
          obtain ⟨_, -, hT'⟩ := Res.bind_eq_ok.1 hT'
        cases hT'; rfl
    · simp only [Res.ok_bind] at h
      exact ⟨T, _, _, hT, h⟩
  obtain ⟨T, k, n, hT, h⟩ := key
  unfold Ints.calcJReport at h
  iterate 10
    obtain ⟨_, -, h⟩ := Res.bind_eq_ok.1 h
  obtain ⟨e, he⟩ := energies_diag h
  rw [hT] at he
  by_contra hbig
  unfold Ints.ofVec at hoe
  obtain ⟨n, hn, hoe⟩ := Res.bind_eq_ok.1 hoe
  have hn : n = es.length ∧ n ≤ 2147483647 := by
    unfold fit at hn
    split at hn
    · rename_i hr
      exact ⟨(Res.ok.inj hn).symm, by rw [← Res.ok.inj hn]; exact hr.2⟩
    · cases hn
  obtain ⟨_, -, hoe⟩ := Res.bind_eq_ok.1 hoe
  obtain ⟨b, -, hoe⟩ := Res.bind_eq_ok.1 hoe
  cases hoe
  have big : 2147483647 < n * n := by
    have : 46341 * 46341 ≤ n * n := Int.mul_le_mul (by omega) (by omega) (by omega) (by omega)
    omega
  unfold Ints.diag at he
  dsimp only at he
  rw [if_neg (by omega), if_neg (by omega), if_neg (by omega), (C113_constructor (α := α) n n 1).2.2.1 (by omega) (by omega) big] at he
  cases he

section
variable {D : Type} [Dbl D]

/-- The orbital numbers that come from a command line are `int`s. -/
theorem numbers (fs : FS) {args : List Str} (hfit : ∀ v ∈ args, v.length + 4 < 2 ^ 63) {q : Parser D} {par : Params.Params}
    (hq : Args.parse fs Args.calcJ args = .ok q) (hp : Args.prepareParameters q = .ok par) :
    (-2 ^ 31 ≤ par.orbNum1 ∧ par.orbNum1 < 2 ^ 31) ∧ (-2 ^ 31 ≤ par.orbNum2 ∧ par.orbNum2 < 2 ^ 31) := by
  obtain ⟨as, h1, h0, h2⟩ := (C59_accepted (D := D) fs args (fun v hv => by unfold Fits; have := hfit v hv; omega)).1.1 ⟨q, hq⟩
  obtain ⟨ha, hv⟩ := facts fs args hfit q as hq h1
  obtain ⟨r, hr⟩ := (C124_takes fs hfit ⟨h1, h0, h2⟩).1
  have f1 : (lit "--orbital_num_1", lit "-orb_num_1", Kind.onum) ∈ valueFlags := by decide
  have f2 : (lit "--orbital_num_2", lit "-orb_num_2", Kind.onum) ∈ valueFlags := by decide
  have range : ∀ {f s : Str}, (f, s, Kind.onum) ∈ valueFlags → -2 ^ 31 ≤ numOf as f ∧ numOf as f < 2 ^ 31 := by
    intro f s hf
    have hask := asked_num hv hf
    unfold AskedNum at hask
    cases hl : (given f as).getLast? with
    | none => rw [hl] at hask; dsimp only at hask; rw [hask]; omega
    | some v =>
      rw [hl] at hask
      obtain ⟨n, hn, b⟩ := hv f s _ hf v (List.mem_of_getLast? hl)
      rw [IntText.unique hask hn]
      exact b
  have e := C124_parameters fs hfit hq h1 hr (asked_num hv f1) (asked_num hv f2)
  rw [hp] at e
  have e := e.symm
  unfold parameters at e
  obtain ⟨_, -, e⟩ := Res.bind_eq_ok.1 e
  obtain ⟨_, -, e⟩ := Res.bind_eq_ok.1 e
  obtain ⟨_, -, e⟩ := Res.bind_eq_ok.1 e
  obtain ⟨_, -, e⟩ := Res.bind_eq_ok.1 e
  obtain ⟨_, -, e⟩ := Res.bind_eq_ok.1 e
  obtain ⟨_, -, e⟩ := Res.bind_eq_ok.1 e
  obtain ⟨m1, g1, e⟩ := Res.bind_eq_ok.1 e
  obtain ⟨m2, g2, e⟩ := Res.bind_eq_ok.1 e
  have i1 : m1 = numOf as (lit "--orbital_num_1") := by
    unfold numbered at g1
    split at g1
    · exact (Res.ok.inj g1).symm
    · cases g1
  have i2 : m2 = numOf as (lit "--orbital_num_2") := by
    unfold numbered at g2
    split at g2
    · exact (Res.ok.inj g2).symm
    · cases g2
  have e := (Res.ok.inj e).symm
  rw [e]
  dsimp only
  rw [i1, i2]
  exact ⟨range f1, range f2⟩

/-- **C125 (calc_J).** For every command line and all files: if each of the six files it reads is small, calc_J with checked `int`s does
exactly what it does with unbounded ones, whatever that is. -/
theorem C125_calcJ [Zero α] [One α] [Add α] [Sub α] [Mul α] [Div α] [Num α] [DecidableEq β] (tos : α → β) (files : Str → Option Str) (fuel : Nat)
    (args : List Str) (hargs : ∀ v ∈ args, v.length + 4 < 2 ^ 63)
    (small : ∀ (q : Parser D) par, Args.parse (fsOf files) Args.calcJ args = .ok q → Args.prepareParameters q = .ok par →
      (∀ name (d : PunData α), name ∈ [par.punP, par.pun1, par.pun2] → readPun files fuel name = .ok d → SmallPun d) ∧
      (∀ name (d : LogData α), name ∈ [par.logP, par.log1, par.log2] → readLog files fuel name = .ok d → SmallLog d)) :
    Ints.calcJRun D tos files fuel args = Verif.calcJRun D tos files fuel args := by
  unfold Ints.calcJRun Verif.calcJRun
  rw [Args.prepareParser_ok]
  simp only [Res.ok_bind]
  refine bind_eq rfl fun q eq => ?_
  refine bind_eq rfl fun par epar => ?_
  obtain ⟨hpun, hlog⟩ := small q par eq epar
  obtain ⟨n1, n2⟩ := numbers (fsOf files) hargs eq epar
  refine bind_eq rfl fun x ex => ?_
  obtain ⟨⟨prP, pr1, pr2⟩, ⟨lrP, lr1, lr2⟩⟩ := x
  dsimp only
  have hx := ex
  unfold readFiles at hx
  obtain ⟨a1, q1, hx⟩ := Res.bind_eq_ok.1 hx
  obtain ⟨a2, q2, hx⟩ := Res.bind_eq_ok.1 hx
  obtain ⟨a3, q3, hx⟩ := Res.bind_eq_ok.1 hx
  obtain ⟨a4, q4, hx⟩ := Res.bind_eq_ok.1 hx
  obtain ⟨a5, q5, hx⟩ := Res.bind_eq_ok.1 hx
  obtain ⟨a6, q6, hx⟩ := Res.bind_eq_ok.1 hx
  have hx := Res.ok.inj hx
  injection hx with hx1 hx2
  injection hx1 with b1 hx1
  injection hx1 with b2 b3
  injection hx2 with b4 hx2
  injection hx2 with b5 b6
  subst b1 b2 b3 b4 b5 b6
  exact bind_eq (C125_calculation tos files fuel n1 n2 ex (hpun _ _ (by simp) q1) (hpun _ _ (by simp) q2) (hpun _ _ (by simp) q3)
    (hlog _ _ (by simp) q4) (hlog _ _ (by simp) q5) (hlog _ _ (by simp) q6)) fun _ _ => rfl

end

end Verif.Ints
