import Verif.Main
import Verif.Safe
import Verif.Props.Transfer
import Verif.Spec.Main
/-
Lemmas about `main`: what a successful computation implies.
-/
namespace Verif
open Strings

/-- If a result is returned it satisfies `P`. -/
def Post {β : Type} (P : β → Prop) (x : Res β) : Prop := ∀ a, x = .ok a → P a

namespace Post
variable {β γ : Type} {P : β → Prop} {Q : γ → Prop}

theorem ok {a : β} (h : P a) : Post P (.ok a) := fun b hb => by cases hb; exact h
theorem throw (e : Exn) : Post P (.throw e) := fun b hb => by cases hb
theorem exit (c : Int) : Post P (.exit c) := fun b hb => by cases hb
theorem diverge : Post P .diverge := fun b hb => by cases hb
theorem ub : Post P .ub := fun b hb => by cases hb

theorem bind {x : Res β} {f : β → Res γ} (hx : Post P x) (hf : ∀ a, P a → Post Q (f a)) : Post Q (x >>= f) := by
  cases x with
  | ok a => exact hf a (hx a rfl)
  | ub => exact ub
  | throw e => exact throw e
  | exit c => exact exit c
  | diverge => exact diverge

theorem any {x : Res β} : Post (fun _ => True) x := fun _ _ => trivial

theorem ite {c : Prop} [Decidable c] {x y : Res β} (hx : c → Post P x) (hy : ¬ c → Post P y) : Post P (if c then x else y) := by
  split
  · exact hx (by assumption)
  · exact hy (by assumption)

theorem foldlM {ι : Type} {f : β → ι → Res β} (hf : ∀ a i, P a → Post P (f a i)) : ∀ (l : List ι) (a : β), P a → Post P (l.foldlM f a)
  | [], a, h => .ok h
  | i :: l, a, h => by rw [List.foldlM_cons]; exact (hf a i h).bind fun a' h' => foldlM hf l a' h'

theorem forRange {f : β → Int → Res β} (hf : ∀ a i, P a → Post P (f a i)) (lo hi : Int) (a : β) (h : P a) :
    Post P (forRange lo hi a f) := foldlM hf _ a h

end Post

theorem Safe.post {β : Type} {P : β → Prop} {x : Res β} (h : Safe P x) : Post P x := h.2

namespace QC
open Mat
variable {α : Type}

/-! ### unscrambling keeps the dimensions -/

section
variable [Zero α]

omit [Zero α] in
theorem mergeColsStep_post {r c : Int} (rows cols : Int) (st : Mat α × Int) (m : Mat α) (h : Sized r c st.1) :
    Post (fun st => Sized r c st.1) (mergeColsStep rows cols st m) := by
  unfold mergeColsStep
  refine .ite (fun _ => .throw _) (fun _ => ?_)
  refine Post.bind (P := fun st : Mat α × Int => Sized r c st.1) ?_ fun x hx => .ok hx
  refine Post.forRange (P := fun st : Mat α × Int => Sized r c st.1) (fun a i ha => ?_) _ _ _ h
  refine .ite (fun _ => .throw _) (fun _ => ?_)
  refine Post.bind (P := Sized r c) ?_ fun x hx => .ok hx
  exact Post.forRange (fun a i ha => Post.any.bind fun v _ => (setElem2_safe ha _ _ _).post) _ _ _ ha

omit [Zero α] in
theorem mergeRowsStep_post {r c : Int} (rows cols : Int) (st : Mat α × Int) (m : Mat α) (h : Sized r c st.1) :
    Post (fun st => Sized r c st.1) (mergeRowsStep rows cols st m) := by
  unfold mergeRowsStep
  refine .ite (fun _ => .throw _) (fun _ => ?_)
  refine Post.bind (P := fun st : Mat α × Int => Sized r c st.1) ?_ fun x hx => .ok hx
  refine Post.forRange (P := fun st : Mat α × Int => Sized r c st.1) (fun a i ha => ?_) _ _ _ h
  refine .ite (fun _ => .throw _) (fun _ => ?_)
  refine Post.bind (P := Sized r c) ?_ fun x hx => .ok hx
  exact Post.forRange (fun a i ha => Post.any.bind fun v _ => (setElem2_safe ha _ _ _).post) _ _ _ ha

theorem merge_post (l : List (Mat α)) (rows cols : Int) (dir : Str) : Post (Sized rows cols) (mergeListOfMatrices l rows cols dir) := by
  unfold mergeListOfMatrices
  refine (mk2_safe _ _).post.bind fun full hf => .ite (fun _ => ?_) (fun _ => .ite (fun _ => ?_) (fun _ => .throw _))
  · exact Post.bind (Post.foldlM (P := fun st : Mat α × Int => Sized rows cols st.1) (fun a i ha => mergeColsStep_post _ _ _ _ ha) _ _ hf)
      fun x hx => .ok hx
  · exact Post.bind (Post.foldlM (P := fun st : Mat α × Int => Sized rows cols st.1) (fun a i ha => mergeRowsStep_post _ _ _ _ ha) _ _ hf)
      fun x hx => .ok hx

theorem unscrambleCoef2_post (A B basis : List Int) (m : Mat α) : Post (Sized m.rows m.cols) (unscrambleCoef2 A B basis m) :=
  Post.any.bind fun _ _ => Post.any.bind fun _ _ => Post.any.bind fun _ _ => merge_post _ _ _ _

theorem unscrambleCoef1_post (B basis : List Int) (m : Mat α) : Post (Sized m.rows m.cols) (unscrambleCoef1 B basis m) :=
  Post.any.bind fun _ _ => Post.any.bind fun _ _ => Post.any.bind fun _ _ => merge_post _ _ _ _

theorem unscrambleS2_post (A B basis : List Int) (m : Mat α) : Post (Sized m.rows m.cols) (unscrambleS2 A B basis m) := by
  unfold unscrambleS2
  refine Post.bind (P := Sized m.rows m.cols) (Post.any.bind fun _ _ => Post.any.bind fun _ _ => Post.any.bind fun _ _ => merge_post _ _ _ _)
    fun m' h => ?_
  rw [h.2.1, h.2.2.1]
  exact Post.any.bind fun _ _ => Post.any.bind fun _ _ => Post.any.bind fun _ _ => merge_post _ _ _ _

theorem unscrambleS1_post (A basis : List Int) (m : Mat α) : Post (Sized m.rows m.cols) (unscrambleS1 A basis m) := by
  unfold unscrambleS1
  refine Post.bind (P := Sized m.rows m.cols) (Post.any.bind fun _ _ => Post.any.bind fun _ _ => Post.any.bind fun _ _ => merge_post _ _ _ _)
    fun m' h => ?_
  rw [h.2.1, h.2.2.1]
  exact Post.any.bind fun _ _ => Post.any.bind fun _ _ => Post.any.bind fun _ _ => merge_post _ _ _ _

/-- What `unscramble` may change. -/
theorem unscramble_post {β : Type} [DecidableEq β] (tos : α → β) (T : TransferComplex α) (x1 x2 xP : Mat α) (bP b2 : List Int) :
    Post (fun T' => T'.coef1 = T.coef1 ∧ (T'.coef2 = T.coef2 ∨ Sized T.coef2.rows T.coef2.cols T'.coef2) ∧
      Sized T.coefP.rows T.coefP.cols T'.coefP ∧ Sized T.S.rows T.S.cols T'.S ∧ T'.oe = T.oe ∧ T'.orbs1 = T.orbs1 ∧ T'.orbs2 = T.orbs2 ∧
      T'.cp = T.cp) (T.unscramble tos x1 x2 xP bP b2) := by
  unfold TransferComplex.unscramble
  refine .ite (fun _ => ?_) (fun _ => ?_)
  · refine Post.any.bind fun _ _ => (unscrambleCoef1_post _ _ _).bind fun c2 h2 => Post.any.bind fun _ _ =>
      (unscrambleCoef1_post _ _ _).bind fun cP hP => (unscrambleS1_post _ _ _).bind fun s hs => .ok ?_
    exact ⟨rfl, .inr h2, hP, hs, rfl, rfl, rfl, rfl⟩
  · refine Post.any.bind fun _ _ => Post.any.bind fun _ _ =>
      (unscrambleCoef2_post _ _ _ _).bind fun cP hP => (unscrambleS2_post _ _ _ _).bind fun s hs => .ok ?_
    exact ⟨rfl, .inl rfl, hP, hs, rfl, rfl, rfl, rfl⟩

end

/-! ### a successful `calcJ` -/

theorem Values.of_sized {r c : Int} {m : Mat α} (h : Sized r c m) : ∃ f, Values m r c f := by
  obtain ⟨f, hf⟩ := h.isMat
  exact ⟨_, hf.values h.pos.1 h.pos.2⟩

/-- The matrix made of a vector of energies. -/
theorem ofVec_vector [Zero α] (v : List α) (h : v ≠ []) :
    ∃ m, ofVec v = .ok m ∧ VectorOf m v.length (fun i => v.getD (i - 1).toNat 0) := by
  have : Inhabited α := ⟨0⟩
  obtain ⟨m, e, hm⟩ := ofVec_isMat v
  have hl : 0 < v.length := List.length_pos_iff.2 h
  refine ⟨m, e, .inl ?_⟩
  refine (IsMat.values (hm.congr (g := fun i _ _ => v.getD (i - 1).toNat 0) ?_) (by omega) (by omega))
  rintro i j k ⟨i1, i2, -⟩
  have : (i - 1).toNat < v.length := by omega
  rw [getElem!_pos v _ this]; rw [List.getD_eq_getElem?_getD, List.getElem?_eq_getElem this, Option.getD_some]

theorem ofVec_nil : (ofVec ([] : List α)) = .ok ⟨0, 1, 1, []⟩ := rfl

theorem ofVec_rows (v : List α) : ∃ m, ofVec v = .ok m ∧ m.rows = v.length := by
  obtain ⟨b', g, e, -⟩ := ofVecLoop_isBuf v (Buf.alloc ((v.length : Int) * 1)) v.length 1 _
    (by simpa using BufIs.alloc (r := v.length) (c := 1) (s := 1) (by omega) (by omega) (by omega)) (by omega) (by omega)
  exact ⟨⟨v.length, 1, 1, b'⟩, by simp only [ofVec, e]; rfl, rfl⟩

theorem diag_ofVec_nil [Zero α] : (⟨0, 1, 1, []⟩ : Mat α).diag = .exit 1 := rfl

/-- A successful transfer integral has turned the energies into a diagonal matrix. -/
theorem transfer_diag [Zero α] [One α] [Add α] [Sub α] [Mul α] [Div α] {c1 c2 cP S oe : Mat α} {cp : Bool} {J : α}
    (h : calculateTransferIntegral c1 c2 cP S oe cp = .ok J) : ∃ e, oe.diag = .ok e := by
  rw [calculateTransferIntegral_def] at h
  iterate 14
    obtain ⟨x, -, h⟩ := Res.bind_eq_ok.1 h
  obtain ⟨x, hx, h⟩ := Res.bind_eq_ok.1 h
  exact ⟨x, hx⟩

theorem getRow_inv [Zero α] {m r : Mat α} {R : Int} (hm : Readers.Loose m) (h : m.getRow R = .ok r) : 1 ≤ R ∧ R ≤ m.rows ∧ 1 ≤ m.cols := by
  have hcols : 1 ≤ m.cols := by
    by_contra hc
    unfold getRow mk3 at h
    split at h
    · cases h
    · rw [if_neg (by omega), if_pos (by omega)] at h; cases h
  have hle : R ≤ m.rows := by
    by_contra hc
    unfold getRow at h
    rw [if_pos (by omega)] at h; cases h
  refine ⟨?_, hle, hcols⟩
  by_contra hc
  unfold getRow at h
  rw [if_neg (by omega)] at h
  obtain ⟨m2, -, h⟩ := Res.bind_eq_ok.1 h
  rw [forRange_cons (by omega), hm.2.2, forRange_cons (by omega)] at h
  have : m.getElem3 R 1 1 = .exit 1 := by unfold getElem3; rw [if_pos (by omega)]
  rw [this] at h
  cases h

theorem selectRow_inv [Zero α] {coef r : Mat α} {orbs : Int × Int} {kind : Str} {n : Int} (h : selectRow coef orbs kind n = .ok r) :
    ∃ row, NamesOrbital orbs kind n row ∧ coef.getRow row = .ok r := by
  unfold selectRow at h
  split at h
  · rename_i hk
    split at h
    · cases h
    · split at h
      · cases h
      · exact ⟨_, .inl ⟨hk, by omega, by omega, rfl⟩, h⟩
  · split at h
    · rename_i hk
      split at h
      · cases h
      · split at h
        · cases h
        · exact ⟨_, .inr ⟨hk, by omega, by omega, rfl⟩, by rw [← h]; congr 1; omega⟩
    · cases h

theorem mapAt_inv {β : Type} {m : Str → Option β} {k : Str} {v : β} (h : mapAt m k = .ok v) : m k = some v := by
  unfold mapAt at h; split at h
  · rename_i e; cases h; exact e
  · cases h

theorem calculate_of_report [Zero α] [One α] [Add α] [Sub α] [Mul α] [Div α] {c1 c2 cP S oe : Mat α} {cp : Bool} {r : Report α}
    (h : transferReport c1 c2 cP S oe cp = .ok r) : calculateTransferIntegral c1 c2 cP S oe cp = .ok r.jeff := by
  unfold calculateTransferIntegral
  rw [h]; rfl

theorem IsReport.coupling [Field α] {cp : Bool} {coef1 coef2 coefP S : Mat α} {E : List α} {row1 row2 : Int} {r : Report α}
    (h : IsReport cp coef1 coef2 coefP S E row1 row2 r) : IsCoupling cp coef1 coef2 coefP S E row1 row2 r.jeff := by
  obtain ⟨N1, n1, N2, n2, M, N, K, c1, c2, C, s, a1, a2, a3, a4, a5, a6, a7, a8, a9, a10, rfl⟩ := h
  exact ⟨N1, n1, N2, n2, M, N, K, c1, c2, C, s, a1, a2, a3, a4, a5, a6, a7, a8, a9, a10, rfl⟩

/-- What a successful `calcJ` implies, given how the matrices were made. -/
theorem calcJReport_inv [Field α] {T : TransferComplex α} {es : List α} (hoe : ofVec es = .ok T.oe) (h1 : Readers.Loose T.coef1)
    (h2 : Readers.Loose T.coef2) {M N K : Int} (hP : Sized M N T.coefP) (hS : Sized K N T.S) {orbtype : Str → Option Str}
    {orbnum : Str → Option Int} {J : Report α} (h : T.calcJReport orbtype orbnum = .ok J) :
    ∃ k1 k2 m1 m2 row1 row2, orbtype "mon1".toList = some k1 ∧ orbtype "mon2".toList = some k2 ∧
      orbnum "mon1".toList = some m1 ∧ orbnum "mon2".toList = some m2 ∧
      NamesOrbital T.orbs1 k1 m1 row1 ∧ NamesOrbital T.orbs2 k2 m2 row2 ∧
      IsReport T.cp T.coef1 T.coef2 T.coefP T.S es row1 row2 J := by
  have h' := h
  unfold TransferComplex.calcJReport at h'
  obtain ⟨d1, -, h'⟩ := Res.bind_eq_ok.1 h'
  obtain ⟨d2, -, h'⟩ := Res.bind_eq_ok.1 h'
  obtain ⟨k1, ek1, h'⟩ := Res.bind_eq_ok.1 h'
  obtain ⟨m1, em1, h'⟩ := Res.bind_eq_ok.1 h'
  obtain ⟨r1, er1, h'⟩ := Res.bind_eq_ok.1 h'
  obtain ⟨x1, -, h'⟩ := Res.bind_eq_ok.1 h'
  obtain ⟨k2, ek2, h'⟩ := Res.bind_eq_ok.1 h'
  obtain ⟨m2, em2, h'⟩ := Res.bind_eq_ok.1 h'
  obtain ⟨r2, er2, h'⟩ := Res.bind_eq_ok.1 h'
  obtain ⟨x2, -, h'⟩ := Res.bind_eq_ok.1 h'
  have hne : es ≠ [] := by
    rintro rfl
    rw [ofVec_nil] at hoe
    cases hoe' : T.oe with
    | mk a b c d =>
      obtain ⟨e, he⟩ := transfer_diag (calculate_of_report h')
      rw [← Res.ok.inj hoe, diag_ofVec_nil] at he
      cases he
  obtain ⟨row1, n1, g1⟩ := selectRow_inv er1
  obtain ⟨row2, n2, g2⟩ := selectRow_inv er2
  obtain ⟨a1, a2, a3⟩ := getRow_inv h1 g1
  obtain ⟨b1, b2, b3⟩ := getRow_inv h2 g2
  obtain ⟨c1, v1⟩ := Values.of_sized (m := T.coef1) (r := _) (c := _) ⟨⟨h1.1, h1.2.1, a3, by rw [h1.2.2]⟩, rfl, rfl, h1.2.2⟩
  obtain ⟨c2, v2⟩ := Values.of_sized (m := T.coef2) (r := _) (c := _) ⟨⟨h2.1, h2.2.1, b3, by rw [h2.2.2]⟩, rfl, rfl, h2.2.2⟩
  obtain ⟨C, vP⟩ := Values.of_sized hP
  obtain ⟨s, vS⟩ := Values.of_sized hS
  obtain ⟨oe, eoe, hE⟩ := ofVec_vector es hne
  rw [hoe] at eoe
  cases eoe
  have t1 := mapAt_inv ek1
  have t2 := mapAt_inv ek2
  have o1 := mapAt_inv em1
  have o2 := mapAt_inv em2
  refine ⟨k1, k2, m1, m2, row1, row2, t1, t2, o1, o2, n1, n2, ?_⟩
  have hc : Conforming T.cp T.coef1.cols T.coef2.cols K ∧ (es.length : Int) = M := by
    by_contra hc
    obtain ⟨a, b, ha, hb, e⟩ := C32_report_rows T v1 v2 orbtype orbnum t1 t2 o1 o2 n1 n2 ⟨a1, a2⟩ ⟨b1, b2⟩
    have e' := C34_refuted_general ha hb vP vS hE hc
    rw [e] at h
    rw [calculate_of_report h] at e'
    cases e'
  obtain ⟨hc, rfl⟩ := hc
  refine ⟨_, _, _, _, _, N, K, c1, c2, C, s, v1, v2, vP, vS, rfl, hc, a1, a2, b1, b2, ?_⟩
  obtain ⟨a, b, ha, hb, e⟩ := C32_report_rows T v1 v2 orbtype orbnum t1 t2 o1 o2 n1 n2 ⟨a1, a2⟩ ⟨b1, b2⟩
  rw [report_eq ha hb vP vS hE hc] at e
  rw [e] at h
  exact (Res.ok.inj h).symm

end QC
end Verif
