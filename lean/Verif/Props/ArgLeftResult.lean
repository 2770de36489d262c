import Verif.ArgLeft
/-
Property C134, the outcomes of the model with left-over states.
-/
namespace Verif.Args
open Strings

/-! ### The outcomes are those of `parse` -/

theorem Left.outcome_andThen {σ : Type} (x : Left σ) (f : σ → Left σ) : (x.andThen f).outcome = x.outcome >>= fun s => (f s).outcome := by
  obtain ⟨s, r⟩ := x
  cases r <;> rfl

theorem Left.outcome_mk {σ : Type} (s : σ) (r : Res Unit) : Left.outcome (s, r) = r >>= fun _ => .ok s := rfl

theorem void_bind {α β : Type} (x : Res α) (b : Res β) : (void x >>= fun _ => b) = x >>= fun _ => b := by cases x <;> rfl

section
variable {S D : Type}

theorem validAllL_outcome {T : Type} (fs : FS) (val : S) (ps : List (PropObj S T)) : (validAllL fs val ps).outcome = validAll fs val ps := by
  induction ps with
  | nil => rfl
  | cons p ps ih =>
    unfold validAll at ih ⊢
    rw [List.mapM_cons, ← ih]
    conv => lhs; unfold validAllL
    generalize validAllL fs val ps = x
    obtain ⟨s, r⟩ := x
    cases p.vt.valid fs val p.opts with
    | ok o => cases r <;> rfl
    | _ => rfl

theorem validAllL_bind {T β : Type} (fs : FS) (val : S) (ps : List (PropObj S T)) (f : List (PropObj S T) → Res β) :
    ((validAllL fs val ps).2 >>= fun _ => f (validAllL fs val ps).1) = validAll fs val ps >>= f := by
  rw [← validAllL_outcome]
  unfold Left.outcome
  cases (validAllL fs val ps).2 <;> rfl

theorem ArgObj.validL_outcome (fs : FS) (val : S) (a : ArgObj S D) : (a.validL fs val).outcome = a.valid fs val := by
  unfold ArgObj.validL ArgObj.valid
  simp only [← validAllL_outcome]
  simp only [Left.outcome_andThen, Left.outcome_mk, bind_assoc, Res.ok_bind]
  simp only [Left.outcome, bind_assoc, Res.ok_bind]

theorem ArgObj.validL_bind {β : Type} (fs : FS) (val : S) (a : ArgObj S D) (f : ArgObj S D → Res β) :
    ((a.validL fs val).2 >>= fun _ => f (a.validL fs val).1) = a.valid fs val >>= f := by
  rw [← ArgObj.validL_outcome]
  unfold Left.outcome
  cases (a.validL fs val).2 <;> rfl
end

section
variable {D : Type}

theorem strStageL_outcome (fs : FS) (flag : Str) (rest : List Str) (s : ArgState D) : (strStageL fs flag rest s).outcome = strStage fs flag rest s := by
  unfold strStageL strStage
  cases s.p.strArg.get flag with
  | none => rfl
  | some a =>
    dsimp only
    cases rest.drop s.used with
    | nil => rfl
    | cons argument _ =>
      simp only [Left.outcome_andThen, Left.outcome_mk, bind_assoc, Res.ok_bind]
      rw [ArgObj.validL_bind fs _ _ (fun a' => Res.ok (⟨{ s.p with strArg := s.p.strArg.set flag a', strs := s.p.strs.set flag argument }, s.used + 1, false⟩ : ArgState D))]

theorem switchStageL_outcome (fs : FS) (flag : Str) (rest : List Str) (s : ArgState D) :
    (switchStageL fs flag rest s).outcome = switchStage fs flag rest s := by
  unfold switchStageL switchStage
  cases s.p.switchArg.get flag with
  | none => rfl
  | some a =>
    dsimp only
    split
    · cases rest.drop s.used with
      | nil => rfl
      | cons argument _ =>
        simp only [Left.outcome_andThen, Left.outcome_mk, bind_assoc, Res.ok_bind, void_bind]
        refine (ArgObj.validL_bind fs _ _ (fun a' => positive argument >>= fun _ => Res.ok (⟨{ s.p with
          switchArg := s.p.switchArg.set flag a'
          strs := s.p.strs.set flag argument
          ints := s.p.ints.set flag (if positive argument = .ok true then 1 else 0) }, s.used, false⟩ : ArgState D))).trans ?_
        congr 1; funext a'
        cases positive argument with
        | ok b => cases b <;> rfl
        | _ => rfl
    · rfl

theorem intStageL_outcome (fs : FS) (flag : Str) (rest : List Str) (s : ArgState D) : (intStageL fs flag rest s).outcome = intStage fs flag rest s := by
  unfold intStageL intStage
  cases s.p.intArg.get flag with
  | none => rfl
  | some a =>
    dsimp only
    cases rest.drop s.used with
    | nil => rfl
    | cons argument _ =>
      dsimp only
      cases stoi argument with
      | ok v =>
        simp only [Left.outcome_andThen, Left.outcome_mk, bind_assoc, Res.ok_bind]
        rw [ArgObj.validL_bind fs _ _ (fun a' => Res.ok (⟨{ s.p with intArg := s.p.intArg.set flag a', ints := s.p.ints.set flag v }, s.used + 1, false⟩ : ArgState D))]
      | _ => rfl

theorem doubleStageL_outcome [Dbl D] (fs : FS) (flag : Str) (rest : List Str) (s : ArgState D) :
    (doubleStageL fs flag rest s).outcome = doubleStage fs flag rest s := by
  unfold doubleStageL doubleStage
  cases s.p.doubleArg.get flag with
  | none => rfl
  | some a =>
    dsimp only
    cases rest.drop s.used with
    | nil => rfl
    | cons argument _ =>
      dsimp only
      cases (Dbl.stod argument : Res D) with
      | ok v =>
        simp only [Left.outcome_andThen, Left.outcome_mk, bind_assoc, Res.ok_bind]
        rw [ArgObj.validL_bind fs _ _ (fun a' => Res.ok (⟨{ s.p with doubleArg := s.p.doubleArg.set flag a', doubles := s.p.doubles.set flag v }, s.used + 1, false⟩ : ArgState D))]
      | _ => rfl

theorem fileStageL_outcome (fs : FS) (flag : Str) (rest : List Str) (s : ArgState D) : (fileStageL fs flag rest s).outcome = fileStage fs flag rest s := by
  unfold fileStageL fileStage
  cases s.p.fileArg.get flag with
  | none => rfl
  | some a =>
    dsimp only
    cases rest.drop s.used with
    | nil => rfl
    | cons argument _ =>
      simp only [Left.outcome_andThen, Left.outcome_mk, bind_assoc, Res.ok_bind]
      rw [ArgObj.validL_bind fs _ _ (fun a' => Res.ok (⟨{ s.p with fileArg := s.p.fileArg.set flag a', strs := s.p.strs.set flag argument }, s.used + 1, false⟩ : ArgState D))]

variable [Dbl D]

theorem parseArgL_outcome (fs : FS) (p : Parser D) (token : Str) (rest : List Str) :
    ((parseArgL fs p token rest).outcome >>= fun s => .ok (s.p, s.used)) = parseArg fs p token rest := by
  unfold parseArgL parseArg
  simp only [Left.outcome_andThen, strStageL_outcome, switchStageL_outcome, intStageL_outcome, doubleStageL_outcome, fileStageL_outcome, bind_assoc]
  congr 1; funext s1; congr 1; funext s2; congr 1; funext s3; congr 1; funext s4; congr 1; funext s5
  cases s5.unrec <;> rfl

theorem parseLoopL_outcome (fs : FS) (size : Nat) (args : List Str) :
    ∀ (skip allowed : Nat) (p : Parser D), (parseLoopL fs size skip allowed p args).outcome = parseLoop fs size skip allowed p args := by
  induction args with
  | nil => intro skip allowed p; cases skip <;> rfl
  | cons token rest ih =>
    intro skip allowed p
    cases skip with
    | succ skip => exact ih skip allowed p
    | zero =>
      unfold parseLoopL parseLoop
      rw [← parseArgL_outcome]
      split
      · split
        · rfl
        · exact ih _ _ _
      · split
        · rfl
        · split
          · split
            · rfl
            · exact ih _ _ _
          · unfold Left.outcome
            cases h : (parseArgL fs p token rest).2 with
            | ok u => exact ih _ _ _
            | _ => rfl

/-- C134: the outcomes are those of `parse` (and the parser is the same, if it returns). -/
theorem C134_result (fs : FS) (p : Parser D) (args : List Str) : (parseL fs p args).outcome = parse fs p args := by
  unfold parseL parse
  split
  · rfl
  · rw [Left.outcome_andThen, parseLoopL_outcome]; rfl

end
end Verif.Args
