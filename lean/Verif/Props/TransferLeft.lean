import Verif.Spec.TransferLeft
import Verif.Props.Unscramble
import Verif.Props.QCReorder
/-
C140: one TransferComplex, called again and again.
-/
namespace Verif.QC
open Verif.Mat
variable {α β : Type}

theorem Res.Like.ok_left {γ δ : Type} {R : γ → δ → Prop} {c : γ} {y : Res δ} (h : Res.Like R (.ok c) y) : ∃ d, y = .ok d ∧ R c d := by
  cases y <;> first | exact ⟨_, rfl, h⟩ | exact h.elim

section
variable [Zero α] [DecidableEq β]

/-- C140 (the two views of `unscramble`): it returns exactly if the model used by the other claims returns, with the same object; otherwise it fails
in the same way. -/
theorem C140_agrees (tos : α → β) (T : TransferComplex α) (x1 x2 xP : Mat α) (bP b2 : List Int) :
    T.unscramble tos x1 x2 xP bP b2 = (do
      (T.unscrambleLeft tos x1 x2 xP bP b2).1
      .ok (T.unscrambleLeft tos x1 x2 xP bP b2).2) := by
  unfold TransferComplex.unscramble TransferComplex.unscrambleLeft
  by_cases h : T.cp = true
  · simp only [h, if_true]
    cases e1 : Mat.matchCol tos x1 x2 with
    | ok m12 =>
      simp only [orLeave, Res.ok_bind]
      cases e2 : unscrambleCoef1 m12 b2 T.coef2 with
      | ok c2 =>
        simp only [Res.ok_bind]
        cases e3 : Mat.matchCol tos x1 xP with
        | ok m1P =>
          simp only [Res.ok_bind]
          cases e4 : unscrambleCoef1 m1P bP T.coefP with
          | ok cP =>
            simp only [Res.ok_bind]
            cases e5 : unscrambleS1 m1P bP T.S <;> rfl
          | _ => rfl
        | _ => rfl
      | _ => rfl
    | _ => rfl
  · simp only [h, if_false]
    cases e1 : Mat.matchCol tos x1 xP with
    | ok m1P =>
      simp only [orLeave, Res.ok_bind]
      cases e2 : Mat.matchCol tos x2 xP with
      | ok m2P =>
        simp only [Res.ok_bind]
        cases e4 : unscrambleCoef2 m1P m2P bP T.coefP with
        | ok cP =>
          simp only [Res.ok_bind]
          cases e5 : unscrambleS2 m1P m2P bP T.S <;> rfl
        | _ => rfl
      | _ => rfl
    | _ => rfl

theorem SameShape.refl (m : Mat α) : SameShape m m := fun _ _ f h => ⟨f, h⟩

theorem SameShape.trans {a b c : Mat α} (h : SameShape a b) (h' : SameShape b c) : SameShape a c := by
  intro r k f hf
  obtain ⟨g, hg⟩ := h hf
  exact h' hg

theorem shape_coef1 {A basis : List Int} {m m' : Mat α} (h : unscrambleCoef1 A basis m = .ok m') : SameShape m m' := by
  intro r c f hf
  have := C121_coef_one A basis hf
  rw [h] at this
  obtain ⟨g, -, hg⟩ := Res.Like.ok_left this
  exact ⟨g, hg⟩

theorem shape_coef2 {A B basis : List Int} {m m' : Mat α} (h : unscrambleCoef2 A B basis m = .ok m') : SameShape m m' := by
  intro r c f hf
  have := C121_coef_two A B basis hf
  rw [h] at this
  obtain ⟨g, -, hg⟩ := Res.Like.ok_left this
  exact ⟨g, hg⟩

theorem shape_S1 {A basis : List Int} {m m' : Mat α} (h : unscrambleS1 A basis m = .ok m') : SameShape m m' := by
  intro r c f hf
  have := C121_overlap_one A basis hf
  rw [h] at this
  obtain ⟨g, -, hg⟩ := Res.Like.ok_left this
  exact ⟨g, hg⟩

theorem shape_S2 {A B basis : List Int} {m m' : Mat α} (h : unscrambleS2 A B basis m = .ok m') : SameShape m m' := by
  intro r c f hf
  have := C121_overlap_two A B basis hf
  rw [h] at this
  obtain ⟨g, -, hg⟩ := Res.Like.ok_left this
  exact ⟨g, hg⟩

/-- What `unscramble` never changes. -/
structure Kin (T T' : TransferComplex α) : Prop where
  coef1 : T'.coef1 = T.coef1
  orbs1 : T'.orbs1 = T.orbs1
  orbs2 : T'.orbs2 = T.orbs2
  oe : T'.oe = T.oe
  cp : T'.cp = T.cp
  coef2 : T.cp = false → T'.coef2 = T.coef2
  shape2 : SameShape T.coef2 T'.coef2
  shapeP : SameShape T.coefP T'.coefP
  shapeS : SameShape T.S T'.S

theorem Kin.refl (T : TransferComplex α) : Kin T T := ⟨rfl, rfl, rfl, rfl, rfl, fun _ => rfl, .refl _, .refl _, .refl _⟩

theorem Kin.trans {T T' T'' : TransferComplex α} (h : Kin T T') (h' : Kin T' T'') : Kin T T'' :=
  ⟨h'.coef1.trans h.coef1, h'.orbs1.trans h.orbs1, h'.orbs2.trans h.orbs2, h'.oe.trans h.oe, h'.cp.trans h.cp,
    fun c => (h'.coef2 (h.cp.trans c)).trans (h.coef2 c), h.shape2.trans h'.shape2, h.shapeP.trans h'.shapeP, h.shapeS.trans h'.shapeS⟩

theorem orLeave_ind {γ : Type} {P : TransferComplex α → Prop} {T : TransferComplex α} {r : Res γ} {next : γ → Res Unit × TransferComplex α}
    (h : P T) (hn : ∀ c, r = .ok c → P (next c).2) : P (orLeave T r next).2 := by
  unfold orLeave
  cases r with
  | ok c => exact hn c rfl
  | _ => exact h

theorem unscrambleLeft_kin (tos : α → β) (T : TransferComplex α) (x1 x2 xP : Mat α) (bP b2 : List Int) :
    Kin T (T.unscrambleLeft tos x1 x2 xP bP b2).2 ∧ (T.unscrambleLeft tos x1 x2 xP bP b2).2.unscrambled = true := by
  have k0 : ∀ b, Kin T { T with unscrambled := b } := fun b => ⟨rfl, rfl, rfl, rfl, rfl, fun _ => rfl, .refl _, .refl _, .refl _⟩
  unfold TransferComplex.unscrambleLeft
  by_cases h : T.cp = true
  · have n : T.cp = false → False := fun c => by rw [h] at c; cases c
    dsimp only
    rw [if_pos h]
    refine orLeave_ind (P := fun T' => Kin T T' ∧ T'.unscrambled = true) ⟨k0 _, rfl⟩ fun m12 _ => ?_
    refine orLeave_ind (P := fun T' => Kin T T' ∧ T'.unscrambled = true) ⟨k0 _, rfl⟩ fun c2 e2 => ?_
    have s2 := shape_coef1 e2
    have k1 : Kin T { T with unscrambled := true, coef2 := c2 } := ⟨rfl, rfl, rfl, rfl, rfl, fun c => (n c).elim, s2, .refl _, .refl _⟩
    refine orLeave_ind (P := fun T' => Kin T T' ∧ T'.unscrambled = true) ⟨k1, rfl⟩ fun m1P _ => ?_
    refine orLeave_ind (P := fun T' => Kin T T' ∧ T'.unscrambled = true) ⟨k1, rfl⟩ fun cP eP => ?_
    have sP := shape_coef1 eP
    refine orLeave_ind (P := fun T' => Kin T T' ∧ T'.unscrambled = true)
      ⟨⟨rfl, rfl, rfl, rfl, rfl, fun c => (n c).elim, s2, sP, .refl _⟩, rfl⟩ fun S eS => ?_
    exact ⟨⟨rfl, rfl, rfl, rfl, rfl, fun c => (n c).elim, s2, sP, shape_S1 eS⟩, rfl⟩
  · dsimp only
    rw [if_neg h]
    refine orLeave_ind (P := fun T' => Kin T T' ∧ T'.unscrambled = true) ⟨k0 _, rfl⟩ fun m1P _ => ?_
    refine orLeave_ind (P := fun T' => Kin T T' ∧ T'.unscrambled = true) ⟨k0 _, rfl⟩ fun m2P _ => ?_
    refine orLeave_ind (P := fun T' => Kin T T' ∧ T'.unscrambled = true) ⟨k0 _, rfl⟩ fun cP eP => ?_
    have sP := shape_coef2 eP
    refine orLeave_ind (P := fun T' => Kin T T' ∧ T'.unscrambled = true)
      ⟨⟨rfl, rfl, rfl, rfl, rfl, fun _ => rfl, .refl _, sP, .refl _⟩, rfl⟩ fun S eS => ?_
    exact ⟨⟨rfl, rfl, rfl, rfl, rfl, fun _ => rfl, .refl _, sP, shape_S2 eS⟩, rfl⟩

end

section
variable [Zero α] [One α] [Add α] [Sub α] [Mul α] [Div α] [DecidableEq β]

theorem serve_kin (tos : α → β) (T : TransferComplex α) (c : Call α) : Kin T (serve tos T c).2 := by
  cases c with
  | unscramble => exact (unscrambleLeft_kin ..).1
  | calcJ => exact Kin.refl T

theorem servedAll_kin (tos : α → β) (calls : List (Call α)) (T : TransferComplex α) : Kin T (servedAll tos T calls) := by
  induction calls generalizing T with
  | nil => exact Kin.refl T
  | cons c cs ih => exact (serve_kin tos T c).trans (ih _)

/-- C140 (what stays): whatever is called, and however it ends, the coefficients of monomer 1, the numbers of orbitals, the energies and the choice of
counterpoise stay what they were; without counterpoise also the coefficients of monomer 2; and all matrices keep their dimensions. -/
theorem C140_stays (tos : α → β) (T : TransferComplex α) (calls : List (Call α)) :
    let T' := servedAll tos T calls
    T'.coef1 = T.coef1 ∧ T'.orbs1 = T.orbs1 ∧ T'.orbs2 = T.orbs2 ∧ T'.oe = T.oe ∧ T'.cp = T.cp ∧ (T.cp = false → T'.coef2 = T.coef2) ∧
    SameShape T.coef2 T'.coef2 ∧ SameShape T.coefP T'.coefP ∧ SameShape T.S T'.S := by
  obtain ⟨h1, h2, h3, h4, h5, h6, h7, h8, h9⟩ := servedAll_kin tos calls T
  exact ⟨h1, h2, h3, h4, h5, h6, h7, h8, h9⟩

/-- C140 (the constructor's checks hold for good): an object whose matrices passed them could at any time be constructed again from what it holds. -/
theorem C140_checked (tos : α → β) {coef1 coef2 coefP S oe : Mat α} {orbs1 orbs2 : Int × Int} {cp : Bool} {T : TransferComplex α}
    (h : TransferComplex.new coef1 coef2 coefP orbs1 orbs2 S oe cp = .ok T)
    {N2 n2 M N K : Int} {c2 C s : Int → Int → α} (h2 : Values coef2 N2 n2 c2) (hP : Values coefP M N C) (hS : Values S K N s) (calls : List (Call α)) :
    let T' := servedAll tos T calls
    TransferComplex.new T'.coef1 T'.coef2 T'.coefP T'.orbs1 T'.orbs2 T'.S T'.oe T'.cp = .ok { T' with unscrambled := false } := by
  intro T'
  have e : T = ⟨coef1, coef2, coefP, orbs1, orbs2, S, oe, false, cp⟩ := by
    unfold TransferComplex.new at h
    simp only at h
    split_ifs at h <;> first | exact (Res.ok.inj h).symm | cases h
  obtain ⟨k1, k2, k3, k4, k5, k6, k7, k8, k9⟩ := servedAll_kin tos calls T
  subst e
  obtain ⟨_, v2⟩ := k7 h2
  obtain ⟨_, vP⟩ := k8 hP
  obtain ⟨_, vS⟩ := k9 hS
  change T'.coef1 = coef1 at k1
  change T'.cp = cp at k5
  have q2 : T'.coef2.cols = coef2.cols := v2.cols.trans h2.cols.symm
  have qP : T'.coefP.cols = coefP.cols := vP.cols.trans hP.cols.symm
  have qS : T'.S.cols = S.cols := vS.cols.trans hS.cols.symm
  clear_value T'
  unfold TransferComplex.new at h ⊢
  rw [q2, qP, qS, k1, k5]
  simp only at h ⊢
  by_cases a : S.cols ≠ coefP.cols
  · rw [if_pos a] at h; cases h
  rw [if_neg a] at h ⊢
  cases cp with
  | true =>
    rw [if_pos rfl] at h ⊢
    by_cases b : coef1.cols ≠ coefP.cols
    · rw [if_pos b] at h; cases h
    rw [if_neg b] at h ⊢
    by_cases c : coef2.cols ≠ coefP.cols
    · rw [if_pos c] at h; cases h
    rw [if_neg c]
  | false =>
    rw [if_neg (by decide)] at h ⊢
    by_cases b : coef1.cols + coef2.cols > coefP.cols
    · rw [if_pos b] at h; cases h
    rw [if_neg b]

/-- C140 (questions change nothing): the reply to any call after these calls is the reply after those of them that are `unscramble`; so `calcJ` may be
asked any number of times, in any order, with the same answers. -/
theorem C140_questions (tos : α → β) (T : TransferComplex α) (calls : List (Call α)) (c : Call α) :
    serve tos (servedAll tos T calls) c = serve tos (servedAll tos T (calls.filter Call.isUnscramble)) c := by
  have : servedAll tos T calls = servedAll tos T (calls.filter Call.isUnscramble) := by
    induction calls generalizing T with
    | nil => rfl
    | cons d ds ih =>
      cases d with
      | unscramble => exact ih _
      | calcJ => exact ih _
  rw [this]

/-- C140 (the warning): `calcJ` warns exactly if `unscramble` was never called - not even if that call threw. -/
theorem C140_warning (tos : α → β) {coef1 coef2 coefP S oe : Mat α} {orbs1 orbs2 : Int × Int} {cp : Bool} {T : TransferComplex α}
    (h : TransferComplex.new coef1 coef2 coefP orbs1 orbs2 S oe cp = .ok T) (calls : List (Call α)) (k : Str → Option Str) (n : Str → Option Int) :
    ∃ w r, (serve tos (servedAll tos T calls) (.calcJ k n)).1 = .report w r ∧ (w = true ↔ ∀ c ∈ calls, c.isUnscramble = false) := by
  refine ⟨_, _, rfl, ?_⟩
  have e : T.unscrambled = false := by
    unfold TransferComplex.new at h
    simp only at h
    split_ifs at h <;> first | (rw [← Res.ok.inj h]) | cases h
  have gen : ∀ (calls : List (Call α)) (T : TransferComplex α),
      (servedAll tos T calls).unscrambled = true ↔ T.unscrambled = true ∨ ∃ c ∈ calls, c.isUnscramble = true := by
    intro calls
    induction calls with
    | nil => intro T; simp [servedAll]
    | cons c cs ih =>
      intro T
      refine (ih (serve tos T c).2).trans ?_
      cases c with
      | unscramble x1 x2 xP bP b2 =>
        have := (unscrambleLeft_kin tos T x1 x2 xP bP b2).2
        simp [serve, this, Call.isUnscramble]
      | calcJ => simp [serve, Call.isUnscramble]
  have g := gen calls T
  rw [e] at g
  simp only [Bool.false_eq_true, false_or] at g
  unfold TransferComplex.warns
  constructor
  · intro hw c hc
    by_contra hn
    rw [g.2 ⟨c, hc, by simpa using hn⟩] at hw
    cases hw
  · intro hall
    cases hq : (servedAll tos T calls).unscrambled with
    | false => rfl
    | true =>
      obtain ⟨c, hc, ht⟩ := g.1 hq
      rw [hall c hc] at ht
      cases ht

end
end Verif.QC
