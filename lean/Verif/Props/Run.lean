import Verif.RunLemmas
/-
Property C122: calc_J on six files, whatever is in them.
-/
namespace Verif.Run
open Strings Readers QC Mat Log

section
variable {α β : Type} [Zero α] [Mul α] [Num α] [DecidableEq β]

theorem pun_get {D : PunData α} {d : Pun.Known α} (h : Readers.Matches D d) (spin : Log.Spin) :
    (d spin = none ∧ D.getCoefsMatrix spin.name = .throw .invalidArgument) ∨
    ∃ rows m, d spin = some rows ∧ D.getCoefsMatrix spin.name = .ok m ∧ Tab m rows := by
  cases e : d spin with
  | none => exact .inl ⟨rfl, by simp only [PunData.getCoefsMatrix, (h.1 spin).1 e]⟩
  | some rows =>
    obtain ⟨m, h1, h2⟩ := (h.1 spin).2 rows e
    exact .inr ⟨rows, m, rfl, by simp only [PunData.getCoefsMatrix, h1], tab_of h2⟩

theorem log_energies {D : LogData α} {d : LogLines.Known α} (h : LogLines.Holds D d) (spin : Log.Spin) :
    (d.energies spin = none ∧ D.getOE spin.name = .throw .outOfRange ∧ D.getHOMOLevel spin.name = .throw .outOfRange) ∨
    ∃ x : List α × Nat, d.energies spin = some x ∧ D.getOE spin.name = .ok x.1 ∧ D.getHOMOLevel spin.name = .ok (x.2 : Int) := by
  have h1 := h.gives.energies spin
  have h2 := h.gives.homo spin
  cases e : d.energies spin with
  | none => rw [e] at h1 h2; exact .inl ⟨rfl, h1, h2⟩
  | some x => rw [e] at h1 h2; exact .inr ⟨x, rfl, h1, h2⟩

theorem log_coords {D : LogData α} {d : LogLines.Known α} (h : LogLines.Holds D d) :
    (d.coords = none ∧ ofVecVec D.getCoords = .throw .outOfRange) ∨ ∃ xs m, d.coords = some xs ∧ ofVecVec D.getCoords = .ok m ∧ CoordsOf m xs := by
  have h1 := h.gives.coords
  cases e : d.coords with
  | none => rw [e] at h1; rw [h1]; exact .inl ⟨rfl, rfl⟩
  | some xs =>
    rw [e] at h1
    rw [h1]
    obtain ⟨m, em, a, b, c, g, i⟩ := coords_ok xs
    exact .inr ⟨xs, m, rfl, em, ⟨a, b, c, g, i⟩⟩

omit [Mul α] [Num α] in
theorem log_overlap {D : LogData α} {d : LogLines.Known α} (h : LogLines.Holds D d) :
    (d.overlap = none ∧ D.getOverlapMatrix = .ub) ∨ ∃ S m, d.overlap = some S ∧ D.getOverlapMatrix = .ok m ∧ 1 ≤ S.1 ∧
      Values m S.1 S.1 (overlap S) := by
  have h1 := h.S
  unfold LogData.getOverlapMatrix
  cases e : d.overlap with
  | none => rw [e] at h1; simp only [h1]; exact .inl ⟨trivial, trivial⟩
  | some S =>
    rw [e] at h1
    obtain ⟨m, h1, h2, h3⟩ := h1
    rw [h1]
    refine .inr ⟨S, m, rfl, rfl, h2, ?_⟩
    exact IsMat.values h3 (by omega) (by omega)

end

/-! ### the atoms in order -/

section
variable {α β : Type} [Zero α] [DecidableEq β]

/-- What unscrambling leaves. -/
structure Sorted (T T' : TransferComplex α) (C2 : List (List α)) (M n : Int) (x : (Int → Int → α) × (Int → Int → α) × (Int → Int → α)) : Prop where
  coef1 : T'.coef1 = T.coef1
  orbs1 : T'.orbs1 = T.orbs1
  orbs2 : T'.orbs2 = T.orbs2
  oe : T'.oe = T.oe
  cp : T'.cp = T.cp
  cols2 : T'.coef2.cols = width C2
  coef2 : width C2 ≠ 0 → Values T'.coef2 C2.length (width C2) x.1
  coefP : Values T'.coefP M n x.2.1
  S : Values T'.S n n x.2.2

theorem unscramble_inOrder (tos : α → β) (T : TransferComplex α) {X1 X2 XP : Mat α} {x1 x2 xP : List (α × α × α)} (h1 : CoordsOf X1 x1)
    (h2 : CoordsOf X2 x2) (hP : CoordsOf XP xP) (b2 bP : List Int) {C2 : List (List α)} {M n : Int} {c2 cP s : Int → Int → α}
    (w2 : T.coef2.cols = width C2) (v2 : width C2 ≠ 0 → Values T.coef2 C2.length (width C2) c2)
    (hcp : T.cp = true → (width C2 : Int) = n) (vP : Values T.coefP M n cP) (vS : Values T.S n n s) :
    Res.Like (fun T' x => Sorted T T' C2 M n x) (T.unscramble tos X1 X2 XP bP b2) (inOrder tos T.cp x1 x2 xP b2 bP n c2 cP s) := by
  have hn := vP.pos.2
  have l1 : ((partners tos x1 xP).length : Int) = x1.length := by unfold partners; rw [List.length_map]
  unfold TransferComplex.unscramble inOrder
  cases hc : T.cp with
  | true =>
    simp only [if_true, matchCol_partners tos h1 h2, matchCol_partners tos h1 hP, Res.ok_bind]
    have e := hcp hc
    have v2' := v2 (by omega)
    rw [e] at v2'
    refine (C121_coef_one _ b2 v2').bind fun m2 g2 k2 => ?_
    refine (C121_coef_one _ bP vP).bind fun mP gP kP => ?_
    refine (C121_overlap_one _ bP vS).bind fun mS gS kS => ?_
    exact ⟨rfl, rfl, rfl, rfl, hc.symm, by rw [k2.cols]; exact e.symm, fun _ => by rw [e]; exact k2, kP, kS⟩
  | false =>
    simp only [Bool.false_eq_true, if_false, matchCol_partners tos h1 hP, matchCol_partners tos h2 hP, Res.ok_bind]
    rw [← l1]
    refine (C121_coef_two _ _ bP vP).bind fun mP gP kP => ?_
    refine (C121_overlap_two _ _ bP vS).bind fun mS gS kS => ?_
    exact ⟨rfl, rfl, rfl, rfl, hc.symm, w2, v2, kP, kS⟩

end

/-! ### from what is known to the numbers -/

section
variable {α β : Type} [Zero α] [One α] [Add α] [Sub α] [Mul α] [Div α] [DecidableEq β]

theorem calcJReport_chosen {T T' : TransferComplex α} {C1 C2 : List (List α)} {M n : Int} {x : (Int → Int → α) × (Int → Int → α) × (Int → Int → α)}
    (h : Sorted T T' C2 M n x) (t1 : Tab T.coef1 C1) {E1 E2 : List α × Nat} {EP : List α} (o1 : T.orbs1 = ((E1.1.length : Int), (E1.2 : Int)))
    (o2 : T.orbs2 = ((E2.1.length : Int), (E2.2 : Int))) (oe : ofVec EP = .ok T.oe) (types : Str → Option Str) (nums : Str → Option Int)
    {kind1 kind2 : Str} {num1 num2 : Int} (k1 : types "mon1".toList = some kind1) (k2 : types "mon2".toList = some kind2)
    (m1 : nums "mon1".toList = some num1) (m2 : nums "mon2".toList = some num2) :
    T'.calcJReport types nums = (do
      let row1 ← chosen C1 E1 kind1 num1
      let row2 ← chosen C2 E2 kind2 num2
      if Conforming T.cp (width C1) (width C2) n ∧ (EP.length : Int) = M then
        .ok (Machine.report M (Machine.proj n n (zetaA T.cp (width C1) (coefficient C1 row1)) x.2.2 x.2.1)
          (Machine.proj n n (zetaB T.cp (width C1) (x.1 row2)) x.2.2 x.2.1) (fun m => EP.getD (m - 1).toNat 0))
      else .exit 1) := by
  obtain ⟨d, ed, hd⟩ := default_isMat (α := α)
  unfold TransferComplex.calcJReport
  simp only [ed, Res.ok_bind]
  rw [h.coef1, h.orbs1, h.orbs2, o1, o2, h.oe, h.cp]
  refine selected_tab t1.cols t1.values E1 types nums _ kind1 num1 k1 m1 _ ed _ (fun w1 row1 a _ _ ha => ?_)
  refine selected_tab h.cols2 h.coef2 E2 types nums _ kind2 num2 k2 m2 _ ed _ (fun w2 row2 b _ _ hb => ?_)
  exact report_total ha hb h.coefP h.S oe

variable [Num α]

theorem coupling_outcome (tos : α → β) (par : Params.Params) {prP pr1 pr2 : PunData α} {lrP lr1 lr2 : LogData α} {punP pun1 pun2 : Pun.Known α}
    {logP log1 log2 : LogLines.Known α} (hpP : Readers.Matches prP punP) (hp1 : Readers.Matches pr1 pun1) (hp2 : Readers.Matches pr2 pun2)
    (hlP : LogLines.Holds lrP logP) (hl1 : LogLines.Holds lr1 log1) (hl2 : LogLines.Holds lr2 log2)
    {spinP spin1 spin2 : Log.Spin} (sP : par.spinP = spinP.name) (s1 : par.spin1 = spin1.name) (s2 : par.spin2 = spin2.name) :
    couplingReport tos par prP pr1 pr2 lrP lr1 lr2 =
      outcome tos par.counterPoise par.orbType1 par.orbNum1 par.orbType2 par.orbNum2 logP.overlap (found spinP punP (logP, lrP.getBasisFuncCount))
        (found spin1 pun1 (log1, lr1.getBasisFuncCount)) (found spin2 pun2 (log2, lr2.getBasisFuncCount)) := by
  unfold couplingReport outcome found
  rw [sP, s1, s2]
  obtain ⟨a, b⟩ | ⟨S, mS, a, b, hS1, hS⟩ := log_overlap hlP
  · rw [a, b]; rfl
  rw [a, b]; simp only [need, Res.ok_bind]; clear a b
  obtain ⟨a, b⟩ | ⟨CP, mP, a, b, tP⟩ := pun_get hpP spinP
  · rw [a, b]; rfl
  rw [a, b]; simp only [need, Res.ok_bind]; clear a b
  obtain ⟨a, b, -⟩ | ⟨EP, a, b, -⟩ := log_energies hlP spinP
  · rw [a, b]; rfl
  rw [a, b]; simp only [need, Res.ok_bind]; clear a b
  obtain ⟨oeP, eoe⟩ : ∃ m, ofVec EP.1 = .ok m := by
    obtain ⟨m, e, -⟩ := ofVec_rows EP.1
    exact ⟨m, e⟩
  rw [eoe]; simp only [Res.ok_bind]
  obtain ⟨a, -, b⟩ | ⟨E1, a, b, c⟩ := log_energies hl1 spin1
  · rw [a, b]; rfl
  rw [a, b, c]; simp only [need, Res.ok_bind]; clear a b c
  obtain ⟨a, b⟩ | ⟨C1, m1, a, b, t1⟩ := pun_get hp1 spin1
  · rw [a, b]; rfl
  rw [a, b]; simp only [need, Res.ok_bind]; clear a b
  obtain ⟨oe1, e1, r1⟩ := ofVec_rows E1.1
  rw [e1]; simp only [Res.ok_bind]
  obtain ⟨a, -, b⟩ | ⟨E2, a, b, c⟩ := log_energies hl2 spin2
  · rw [a, b]; rfl
  rw [a, b, c]; simp only [need, Res.ok_bind]; clear a b c
  obtain ⟨a, b⟩ | ⟨C2, m2, a, b, t2⟩ := pun_get hp2 spin2
  · rw [a, b]; rfl
  rw [a, b]; simp only [need, Res.ok_bind]; clear a b
  obtain ⟨oe2, e2, r2⟩ := ofVec_rows E2.1
  rw [e2]; simp only [Res.ok_bind]
  obtain ⟨a, b⟩ | ⟨xP, XP, a, b, cP⟩ := log_coords hlP
  · rw [a, b]; rfl
  rw [a, b]; simp only [need, Res.ok_bind]; clear a b
  obtain ⟨a, b⟩ | ⟨x1, X1, a, b, c1⟩ := log_coords hl1
  · rw [a, b]; rfl
  rw [a, b]; simp only [need, Res.ok_bind]; clear a b
  obtain ⟨a, b⟩ | ⟨x2, X2, a, b, c2⟩ := log_coords hl2
  · rw [a, b]; rfl
  rw [a, b]; simp only [need, Res.ok_bind]; clear a b
  obtain ⟨k1, k2⟩ := C34_ctor m1 m2 mP (oe1.rows, (E1.2 : Int)) (oe2.rows, (E2.2 : Int)) mS oeP par.counterPoise
  rw [hS.cols, tP.cols, t1.cols, t2.cols] at k1 k2
  have hfit : ((S.1 : Int) = width CP ∧ (if par.counterPoise = true then (width C1 : Int) = width CP ∧ (width C2 : Int) = width CP
      else (width C1 : Int) + width C2 ≤ width CP)) ↔
      (width CP = S.1 ∧ (if par.counterPoise = true then width C1 = S.1 ∧ width C2 = S.1 else width C1 + width C2 ≤ S.1)) := by
    split <;> omega
  by_cases hc : width CP = S.1 ∧ (if par.counterPoise = true then width C1 = S.1 ∧ width C2 = S.1 else width C1 + width C2 ≤ S.1)
  swap
  · rw [if_neg hc, k2 (fun h => hc (hfit.1 h))]; rfl
  rw [if_pos hc, k1 (hfit.2 hc)]
  simp only [Res.ok_bind]
  have vP := tP.values (by omega)
  rw [hc.1] at vP
  have ht1 : (Map.set (Map.set [] (lit "mon1") par.orbType1) (lit "mon2") par.orbType2 : Map Str).get "mon1".toList = some par.orbType1 := rfl
  have ht2 : (Map.set (Map.set [] (lit "mon1") par.orbType1) (lit "mon2") par.orbType2 : Map Str).get "mon2".toList = some par.orbType2 := rfl
  have hn1 : (Map.set (Map.set [] (lit "mon1") par.orbNum1) (lit "mon2") par.orbNum2 : Map Int).get "mon1".toList = some par.orbNum1 := rfl
  have hn2 : (Map.set (Map.set [] (lit "mon1") par.orbNum1) (lit "mon2") par.orbNum2 : Map Int).get "mon2".toList = some par.orbNum2 := rfl
  rw [r1, r2]
  have fin : ∀ T' x, Sorted (⟨m1, m2, mP, ((E1.1.length : Int), (E1.2 : Int)), ((E2.1.length : Int), (E2.2 : Int)), mS, oeP, false, par.counterPoise⟩ : TransferComplex α) T' C2 CP.length S.1 x →
      T'.calcJReport (Map.set (Map.set [] (lit "mon1") par.orbType1) (lit "mon2") par.orbType2 : Map Str).get
        (Map.set (Map.set [] (lit "mon1") par.orbNum1) (lit "mon2") par.orbNum2 : Map Int).get = (do
      let row1 ← chosen C1 E1 par.orbType1 par.orbNum1
      let row2 ← chosen C2 E2 par.orbType2 par.orbNum2
      if Conforming par.counterPoise (width C1) (width C2) S.1 ∧ EP.1.length = CP.length then
        .ok (Machine.report CP.length (Machine.proj S.1 S.1 (zetaA par.counterPoise (width C1) (coefficient C1 row1)) x.2.2 x.2.1)
          (Machine.proj S.1 S.1 (zetaB par.counterPoise (width C1) (x.1 row2)) x.2.2 x.2.1) (fun m => EP.1.getD (m - 1).toNat 0))
      else .exit 1) := by
    intro T' x hx
    rw [calcJReport_chosen hx t1 rfl rfl eoe _ _ ht1 ht2 hn1 hn2]
    simp only [Int.natCast_inj]
  have hb : (lr1.getBasisFuncCount.length ≠ 0 ∧ lr2.getBasisFuncCount.length ≠ 0 ∧ lrP.getBasisFuncCount.length ≠ 0) ↔
      (lr1.getBasisFuncCount ≠ [] ∧ lr2.getBasisFuncCount ≠ [] ∧ lrP.getBasisFuncCount ≠ []) := by
    simp only [ne_eq, List.length_eq_zero_iff]
  by_cases h0 : lr1.getBasisFuncCount ≠ [] ∧ lr2.getBasisFuncCount ≠ [] ∧ lrP.getBasisFuncCount ≠ []
  · simp only [if_pos h0, if_pos (hb.2 h0)]
    refine Res.Like.eq (Res.Like.bind (unscramble_inOrder tos _ c1 c2 cP _ _ t2.cols t2.values (fun h => ?_) vP hS) fun T' x hx => ?_)
    · have := hc.2
      rw [if_pos h] at this
      omega
    · obtain ⟨y1, y2, y3⟩ := x
      rw [fin _ _ hx]
      generalize (chosen C1 E1 par.orbType1 par.orbNum1 >>= _) = z
      cases z <;> simp [Res.Like]
  · simp only [if_neg h0, if_neg (fun h => h0 (hb.1 h)), Res.ok_bind]
    exact fin _ (_, _, _) ⟨rfl, rfl, rfl, rfl, rfl, t2.cols, t2.values, vP, hS⟩

end

/-! ### reading -/

/-- Reading comes out as it should: the same failure, or data as told by `R`. -/
def Comes {γ δ : Type} (R : γ → δ → Prop) (f : Nat → Res γ) : Res δ → Prop
  | .ok d => ∃ D, Ends f (.ok D) ∧ R D d
  | .throw e => Ends f (.throw e)
  | .exit c => Ends f (.exit c)
  | .ub => Ends f .ub
  | .diverge => Hangs f

theorem Comes.bind {γ δ κ : Type} {R : γ → δ → Prop} {f : Nat → Res γ} {r : Res δ} {g : Nat → γ → Res κ} {s : δ → Res κ} (hm : Mono f)
    (h : Comes R f r) (hg : ∀ D d, R D d → Does (fun n => g n D) (s d)) : Does (fun n => f n >>= g n) (r >>= s) := by
  have fail : ∀ out : Res γ, Ends f out → ∀ out' : Res κ, (∀ n, (f n = out → (f n >>= g n) = out')) → out' ≠ .diverge → Ends (fun n => f n >>= g n) out' := by
    rintro out ⟨-, N, hN⟩ out' ho hd
    exact ⟨hd, N, fun fuel hf => ho fuel (hN fuel hf)⟩
  cases r with
  | ok d =>
    obtain ⟨D, hD, hR⟩ := h
    have := hg D d hR
    show Does _ (s d)
    have cases_f : ∀ n, f n = .diverge ∨ f n = .ok D := by
      intro n
      obtain ⟨-, N, hN⟩ := hD
      by_cases e : f n = .diverge
      · exact .inl e
      · have h' := hm n (max n N) (Nat.le_max_left _ _) e
        rw [hN _ (Nat.le_max_right _ _)] at h'; exact .inr h'.symm
    cases hs : s d with
    | diverge =>
      rw [hs] at this
      intro n
      show (f n >>= g n) = _
      rcases cases_f n with e | e
      · rw [e]; rfl
      · rw [e, Res.ok_bind]; exact this n
    | ok x => rw [hs] at this; exact Ends.bind hD this
    | throw x => rw [hs] at this; exact Ends.bind hD this
    | exit x => rw [hs] at this; exact Ends.bind hD this
    | ub => rw [hs] at this; exact Ends.bind hD this
  | throw e => exact fail _ h (.throw e) (fun n hn => by rw [hn]; rfl) (by simp)
  | exit c => exact fail _ h (.exit c) (fun n hn => by rw [hn]; rfl) (by simp)
  | ub => exact fail _ h .ub (fun n hn => by rw [hn]; rfl) (by simp)
  | diverge => exact Hangs.bind h

theorem Does.const {γ : Type} (x : Res γ) : Does (fun _ => x) x := by
  cases x with
  | diverge => exact fun _ => rfl
  | ok x => exact ⟨by simp, 0, fun _ _ => rfl⟩
  | throw x => exact ⟨by simp, 0, fun _ _ => rfl⟩
  | exit x => exact ⟨by simp, 0, fun _ _ => rfl⟩
  | ub => exact ⟨by simp, 0, fun _ _ => rfl⟩

section
variable {α β : Type} [Zero α] [Mul α] [Num α]

theorem read_missing {σ : Type} (s : Sections σ) {fs : Str → Option Str} {name : Str} (h : fs name = none) (n : Nat) (d : σ) :
    Readers.read s fs name n d = .throw .invalidArgument := by
  unfold Readers.read; rw [h]

theorem pun_comes {files : Str → Option Str} {name : Str} {r : Res (Pun.Known α)} (hfit : Fits name) (ht : ∀ text, files name = some text → Fits text)
    (h : PunFile files name r) : Comes Readers.Matches (fun n => (readPun files n name : Res (PunData α))) r := by
  have hn := (C70_accepted_partial (α := α) name hfit).2.2
  cases h with
  | name hp =>
    refine ⟨by simp, 0, fun n _ => ?_⟩
    simp only [readPun, hn.2 hp]; rfl
  | missing hp hf =>
    refine ⟨by simp, 0, fun n _ => ?_⟩
    simp only [readPun, hn.1.2 hp, Res.ok_bind]
    exact read_missing _ hf _ _
  | read hp hf hs =>
    obtain ⟨N, hN⟩ := onward_says (allFit_of (ht _ hf)) hs
    obtain ⟨D, hD, hE⟩ := hN ⟨openText _, some _, []⟩ [] (at_start _) ⟨fun spin => ⟨fun _ => rfl, fun rows e => by cases e⟩, rfl⟩
    refine ⟨D, ?_, hD⟩
    rw [readPun_eq files name _ hfit hp hf]
    exact ⟨by simp, N, hE⟩
  | fails hp hf hs => exact C119_fails files name _ hfit hp hf (ht _ hf) _ hs
  | endless hp hf hs => exact C119_endless files name _ hfit hp hf (ht _ hf) hs

theorem log_comes {files : Str → Option Str} {name : Str} {r : Res (LogLines.Known α × List Int)} (hfit : Fits name)
    (ht : ∀ text, files name = some text → Fits text) (h : LogFile files name r) :
    Comes (fun D (d : LogLines.Known α × List Int) => LogLines.Holds D d.1 ∧ D.getBasisFuncCount = d.2) (fun n => (readLog files n name : Res (LogData α))) r := by
  have hn := C70_accepted_partial (α := α) name hfit
  cases h with
  | name hp =>
    refine ⟨by simp, 0, fun n _ => ?_⟩
    simp only [readLog, hn.2.1 hp]; rfl
  | missing hp hf =>
    refine ⟨by simp, 0, fun n _ => ?_⟩
    simp only [readLog, hn.1.2 hp, Res.ok_bind]
    exact read_missing _ hf _ _
  | read hp hf hs hc =>
    obtain ⟨N, D, hD, hE⟩ := LogLines.goOn_says (allFit_of (ht _ hf)) hs ⟨openText _, some _, LogData.empty⟩ [] (LogLines.here_start _) LogLines.holds_start
    refine ⟨D, ?_, hD, counts_unique hD.gives.functions hc⟩
    rw [readLog_eq files name _ hfit hp hf, LogLines.runFrom_goOn]
    exact ⟨by simp, N, hE⟩
  | @fails text x hp hf hs =>
    have := LogLines.C120_fails files name _ hfit hp hf (ht _ hf) _ hs
    cases x <;> exact this
  | endless hp hf hs => exact LogLines.C120_endless files name _ hfit hp hf (ht _ hf) hs

end

/-! ### the program -/

section
variable {α β : Type} [Zero α] [One α] [Add α] [Sub α] [Mul α] [Div α] [Num α] [DecidableEq β] {D : Type} [Args.Dbl D]

omit [One α] [Add α] [Sub α] [Div α] in
/-- **C122 (every file comes out somehow).** -/
theorem C122_reading (files : Str → Option Str) (name : Str) :
    (∃ r : Res (Pun.Known α), PunFile files name r) ∧ ∃ r : Res (LogLines.Known α × List Int), LogFile files name r := by
  constructor
  · by_cases hp : PlainName (lit ".pun") name
    · cases hf : files name with
      | none => exact ⟨_, .missing hp hf⟩
      | some text =>
        rcases C119_cases (α := α) text with ⟨d, h⟩ | ⟨e, h⟩ | h
        · exact ⟨_, .read hp hf h⟩
        · exact ⟨_, .fails hp hf h⟩
        · exact ⟨_, .endless hp hf h⟩
    · exact ⟨_, .name hp⟩
  · by_cases hp : PlainName (lit ".log") name
    · cases hf : files name with
      | none => exact ⟨_, .missing hp hf⟩
      | some text =>
        rcases LogLines.C120_cases (α := α) text with ⟨d, h⟩ | ⟨e, h⟩ | h
        · exact ⟨_, .read hp hf h (LogLines.addShape_counts _)⟩
        · exact ⟨_, .fails hp hf h⟩
        · exact ⟨_, .endless hp hf h⟩
    · exact ⟨_, .name hp⟩

/-- **C122.** What calc_J does, once the command line is accepted, with six files, whatever is in them. -/
theorem C122_run (tos : α → β) (files : Str → Option Str) (args : List Str) {q : Args.Parser D} {par : Params.Params}
    (hq : Args.parse (fsOf files) Args.calcJ args = .ok q) (hpar : Args.prepareParameters q = .ok par)
    (hn : ∀ name ∈ [par.punP, par.pun1, par.pun2, par.logP, par.log1, par.log2], Fits name)
    (ht : ∀ name ∈ [par.punP, par.pun1, par.pun2, par.logP, par.log1, par.log2], ∀ text, files name = some text → Fits text)
    {spinP spin1 spin2 : Log.Spin} (sP : par.spinP = spinP.name) (s1 : par.spin1 = spin1.name) (s2 : par.spin2 = spin2.name)
    {punP pun1 pun2 : Res (Pun.Known α)} {logP log1 log2 : Res (LogLines.Known α × List Int)}
    (hpP : PunFile files par.punP punP) (hp1 : PunFile files par.pun1 pun1) (hp2 : PunFile files par.pun2 pun2)
    (hlP : LogFile files par.logP logP) (hl1 : LogFile files par.log1 log1) (hl2 : LogFile files par.log2 log2) :
    Does (fun fuel => calcJRun D tos files fuel args) (calcJ tos par spinP spin1 spin2 punP pun1 pun2 logP log1 log2) := by
  have e : (fun fuel => (calcJRun D tos files fuel args : Res (Params.Params × Report α))) = fun fuel => (do
      let prP ← readPun files fuel par.punP
      let pr1 ← readPun files fuel par.pun1
      let pr2 ← readPun files fuel par.pun2
      let lrP ← readLog files fuel par.logP
      let lr1 ← readLog files fuel par.log1
      let lr2 ← readLog files fuel par.log2
      let r ← couplingReport tos par prP pr1 pr2 lrP lr1 lr2
      Res.ok (par, r)) := by
    funext fuel
    simp only [calcJRun]; unfold readFiles
    simp only [Args.prepareParser_ok, Res.ok_bind, hq, hpar, bind_assoc]
  rw [e]
  unfold calcJ
  refine Comes.bind (readPun_mono _ _) (pun_comes (hn _ (by simp)) (ht _ (by simp)) hpP) fun prP dP hP => ?_
  refine Comes.bind (readPun_mono _ _) (pun_comes (hn _ (by simp)) (ht _ (by simp)) hp1) fun pr1 d1 h1 => ?_
  refine Comes.bind (readPun_mono _ _) (pun_comes (hn _ (by simp)) (ht _ (by simp)) hp2) fun pr2 d2 h2 => ?_
  refine Comes.bind (readLog_mono _ _) (log_comes (hn _ (by simp)) (ht _ (by simp)) hlP) fun lrP bP gP => ?_
  refine Comes.bind (readLog_mono _ _) (log_comes (hn _ (by simp)) (ht _ (by simp)) hl1) fun lr1 b1 g1 => ?_
  refine Comes.bind (readLog_mono _ _) (log_comes (hn _ (by simp)) (ht _ (by simp)) hl2) fun lr2 b2 g2 => ?_
  have := coupling_outcome tos par hP h1 h2 gP.1 g1.1 g2.1 sP s1 s2
  rw [gP.2, g1.2, g2.2] at this
  simp only [this]
  exact Does.const _

end

end Verif.Run
