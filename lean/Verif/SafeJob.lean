import Verif.SafeCoupling
import Verif.AlignLemmas
import Verif.JobLemmas
import Verif.Props.Main
import Verif.Spec.Safe
import Verif.CalcJParse
/-
calc_J: which steps can run into undefined behaviour.
-/
namespace Verif
open Strings Readers QC Mat Job

/-! ### the parameters -/

namespace Args
variable {D : Type}

theorem findValue_safe {S T : Type} (render : T → Str) (property option : Str) : ∀ (ps : List (PropObj S T)) r,
    findValue render property option ps = some r → Safe (fun _ => True) r
  | [], r, h => by cases h
  | p :: ps, r, h => by
    rw [findValue] at h
    split at h
    · cases h
      refine Safe.bind (P := fun _ => True) ?_ fun _ _ => .ok trivial
      unfold getOpt
      split
      · exact .throw _
      · exact .ok trivial
    · exact findValue_safe render property option ps r h

theorem propertyValue_safe {S : Type} [Dbl D] (a : ArgObj S D) (property option : Str) : Safe (fun _ => True) (a.propertyValue property option) := by
  unfold ArgObj.propertyValue
  have or : ∀ {x y : Option (Res Str)}, (∀ r, x = some r → Safe (fun _ => True) r) → (∀ r, y = some r → Safe (fun _ => True) r) →
      ∀ r, x.or y = some r → Safe (fun _ => True) r := by
    intro x y hx hy r h
    cases x with
    | none => exact hy r h
    | some z => exact hx r h
  have get : ∀ {x : Option (Res Str)}, (∀ r, x = some r → Safe (fun _ => True) r) → Safe (fun _ => True) (x.getD (.throw .invalidArgument)) := by
    intro x hx
    cases x with
    | none => exact .throw _
    | some z => exact hx z rfl
  exact get (or (or (or (or (or (findValue_safe _ _ _ _) (findValue_safe _ _ _ _)) (findValue_safe _ _ _ _)) (findValue_safe _ _ _ _))
    (findValue_safe _ _ _ _)) (findValue_safe _ _ _ _))

theorem optValue_safe [Dbl D] (p : Parser D) (f a pr o : Str) : Safe (fun _ => True) (getFlagArgOptValue p f a pr o) := by
  unfold getFlagArgOptValue
  repeat' split
  all_goals first | exact propertyValue_safe _ _ _ | exact .throw _

theorem positive_safe (s : Str) : Safe (fun _ => True) (positive s) := by
  unfold positive
  exact .ite (fun _ => .ok trivial) (fun _ => .ite (fun _ => .ok trivial) (fun _ => .throw _))

theorem getStr_safe (p : Parser D) (f : Str) : Safe (fun _ => True) (getStr p f) := by
  unfold getStr
  repeat' split
  all_goals first | exact .ok trivial | exact .throw _

theorem getInt_safe (p : Parser D) (f : Str) : Safe (fun _ => True) (getInt p f) := by
  unfold getInt
  repeat' split
  all_goals first | exact .ok trivial | exact .throw _ | exact (positive_safe _).bind fun _ _ => .ok trivial

theorem pickSister_safe (paths : List Str) : ∀ (es : List Str) (n : Nat) (r : Option Str), Safe (fun _ => True) (pickSister paths n es r)
  | [], _, _ => .ok trivial
  | e :: es, n, r => by
    rw [pickSister]
    refine .ite (fun _ => ?_) (fun _ => pickSister_safe paths es _ _)
    split
    · exact .throw _
    · exact pickSister_safe paths es _ _

theorem resolveStep_safe [Dbl D] (p : Parser D) (st : Map Str × Map Str) (fl : Str × Str) : Safe (fun _ => True) (resolveStep p st fl) := by
  unfold resolveStep
  refine (optValue_safe _ _ _ _ _).bind fun _ _ => ?_
  have rest : ∀ m : Map Str, Safe (fun _ => True) (do
      let line ← getFlagArgOptValue p fl.1 (lit "ARGUMENT_FILE") (lit "PROPERTY_SISTER_FILE") (lit "SISTER_FILE_EXISTS")
      let line2 ← getFlagArgOptValue p fl.1 (lit "ARGUMENT_FILE") (lit "PROPERTY_SISTER_FILE") (lit "SISTER_FILE_PATH_NAME")
      let picked ← pickSister (splitSt line2) 0 (splitSt line) none
      match picked with
      | none => Res.ok (m, st.2)
      | some f => Res.ok (m, st.2.set fl.2 f)) := by
    intro m
    refine (optValue_safe _ _ _ _ _).bind fun _ _ => (optValue_safe _ _ _ _ _).bind fun _ _ => (pickSister_safe _ _ _ _).bind fun o _ => ?_
    cases o
    · exact .ok trivial
    · exact .ok trivial
  refine .ite (fun _ => ?_) (fun _ => ?_)
  · exact (getStr_safe _ _).bind fun _ _ => rest _
  · exact rest _

theorem fileFor_safe (a b : Map Str) (f : Str) : Safe (fun _ => True) (fileFor a b f) := by
  unfold fileFor
  repeat' split
  all_goals first | exact .ok trivial | exact .throw _

theorem checkExt_safe (s e : Str) : Safe (fun _ => True) (Params.checkExt s e) := by
  unfold Params.checkExt lastN
  exact (substr_safe _ _ _).bind fun _ _ => .ite (fun _ => .throw _) (fun _ => .ok trivial)

theorem orbNumFor_safe (p : Parser D) (t f : Str) : Safe (fun _ => True) (orbNumFor p t f) := by
  unfold orbNumFor
  refine .ite (fun _ => ?_) (fun _ => .ite (fun _ => ?_) (fun _ => .ok trivial))
  · exact (getInt_safe _ _).bind fun _ _ => .ite (fun _ => .throw _) (fun _ => .ok trivial)
  · exact (getInt_safe _ _).bind fun _ _ => .ite (fun _ => .throw _) (fun _ => .ok trivial)

theorem prepareParameters_safe [Dbl D] (p : Parser D) : Safe (fun _ => True) (prepareParameters p) := by
  unfold prepareParameters
  refine (Safe.foldlM (P := fun _ => True) (fun st fl _ => resolveStep_safe p st fl) _ _ trivial).bind fun st _ => ?_
  refine (fileFor_safe _ _ _).bind fun _ _ => ((checkExt_safe _ _).bind fun _ _ => .ok trivial : Safe (fun _ => True) (Params.setPunP _ _)).bind fun _ _ => ?_
  refine (fileFor_safe _ _ _).bind fun _ _ => ((checkExt_safe _ _).bind fun _ _ => .ok trivial : Safe (fun _ => True) (Params.setPun1 _ _)).bind fun _ _ => ?_
  refine (fileFor_safe _ _ _).bind fun _ _ => ((checkExt_safe _ _).bind fun _ _ => .ok trivial : Safe (fun _ => True) (Params.setPun2 _ _)).bind fun _ _ => ?_
  refine (fileFor_safe _ _ _).bind fun _ _ => ((checkExt_safe _ _).bind fun _ _ => .ok trivial : Safe (fun _ => True) (Params.setLogP _ _)).bind fun _ _ => ?_
  refine (fileFor_safe _ _ _).bind fun _ _ => ((checkExt_safe _ _).bind fun _ _ => .ok trivial : Safe (fun _ => True) (Params.setLog1 _ _)).bind fun _ _ => ?_
  refine (fileFor_safe _ _ _).bind fun _ _ => ((checkExt_safe _ _).bind fun _ _ => .ok trivial : Safe (fun _ => True) (Params.setLog2 _ _)).bind fun _ _ => ?_
  refine (getStr_safe _ _).bind fun _ _ => (getStr_safe _ _).bind fun _ _ => (getStr_safe _ _).bind fun _ _ => ?_
  refine (getInt_safe _ _).bind fun _ _ => (getInt_safe _ _).bind fun _ _ => (getStr_safe _ _).bind fun _ _ => ?_
  exact (orbNumFor_safe _ _ _).bind fun _ _ => (getStr_safe _ _).bind fun _ _ => (orbNumFor_safe _ _ _).bind fun _ _ => .ok trivial

theorem parse_safe [Dbl D] (fs : FS) (args : List Str) (hfit : ∀ v ∈ args, Fits v) : Safe (fun _ => True) (parse fs (calcJ (D := D)) args) := by
  rcases parse_outcome (D := D) fs args hfit with ⟨as, q, -, -, -, h, -⟩ | ⟨e, h, -⟩ | ⟨h, -⟩
  · rw [h]; exact .ok trivial
  · rw [h]; exact .throw _
  · rw [h]; exact .exit _

end Args

/-! ### the computation -/

section
variable {α β : Type} [Field α] [DecidableEq β]

theorem CoordsOf.flat {m : Mat α} {rows : List (α × α × α)} (h : CoordsOf m rows) : Flat m := ⟨h.init, h.shel⟩

/-- If every position is found, every entry of the list `matchCol` returns is the number of a position. -/
theorem matchCol_found (tos : α → β) {m m' : Mat α} {rows ref : List (α × α × α)} (h : CoordsOf m rows) (h' : CoordsOf m' ref)
    (hf : ∀ x ∈ rows, ∃ y ∈ ref, Alike tos x y) {v : List Int} (hv : matchCol tos m m' = .ok v) :
    v.length = rows.length ∧ ∀ t ∈ v, 1 ≤ t ∧ t ≤ ref.length := by
  have : Nonempty α := ⟨0⟩
  by_cases hn : rows = []
  · obtain ⟨f, e⟩ := h.init.exists_isMat
    obtain ⟨g, e'⟩ := h'.init.exists_isMat
    rw [h.shel, h.rows] at e
    rw [h'.shel, h'.rows] at e'
    rw [matchCol_ok tos e e', h.cols, hn] at hv
    cases hv
    simp [irange, hn]
  · obtain ⟨x, hx⟩ := List.exists_mem_of_ne_nil _ hn
    obtain ⟨y, hy, -⟩ := hf x hx
    have l1 : 0 < rows.length := List.length_pos_iff.2 hn
    have l2 : 0 < ref.length := List.length_pos_of_mem hy
    obtain ⟨w, e, hl, hw⟩ := C22_matchCol tos (⟨h.init, by have := h.rows; omega, by have := h.cols; omega, by have := h.shel; omega⟩ : WF m)
      (⟨h'.init, by have := h'.rows; omega, by have := h'.cols; omega, by have := h'.shel; omega⟩ : WF m') h.shel h'.shel (by rw [h.rows, h'.rows])
    rw [e] at hv
    cases hv
    rw [h.cols] at hl
    refine ⟨by omega, fun t ht => ?_⟩
    obtain ⟨k, hk, rfl⟩ := List.getElem_of_mem ht
    rcases hw k hk with ⟨-, hno⟩ | ⟨a, b, -⟩
    · exfalso
      obtain ⟨y, hy, ha⟩ := hf (rows[k]'(by omega)) (List.getElem_mem _)
      obtain ⟨j, hj, rfl⟩ := List.getElem_of_mem hy
      refine hno (j + 1) (by omega) (by rw [h'.cols]; omega) ?_
      rw [h.like h' (by omega) (by omega) (by omega) (by omega)]
      simpa using ha
    · rw [h'.cols] at b
      exact ⟨a, b⟩

theorem matched_of (tos : α → β) {cp : Bool} {x1 x2 xP : Mat α} {rows1 rows2 rowsP : List (α × α × α)} (k1 : CoordsOf x1 rows1)
    (k2 : CoordsOf x2 rows2) (kP : CoordsOf xP rowsP) {basisP basis2 : List Int}
    (h : AtomsFound tos cp rows1 rows2 rowsP basis2.length basisP.length) : Matched tos cp x1 x2 xP basisP basis2 := by
  unfold AtomsFound at h
  unfold Matched
  have one : ∀ {m : Mat α} {m' : Mat α} {rows ref : List (α × α × α)} {n : Nat}, CoordsOf m rows → CoordsOf m' ref → AllFound tos rows ref n →
      ∀ v, matchCol tos m m' = .ok v → Names n v := by
    intro m m' rows ref n h h' ⟨f1, f2, f3⟩ v hv
    obtain ⟨a, b⟩ := matchCol_found tos h h' f3 hv
    exact ⟨by omega, fun t ht => ⟨(b t ht).1, by have := (b t ht).2; omega⟩⟩
  split
  · rename_i c
    rw [if_pos c] at h
    exact ⟨one k1 k2 h.1, one k1 kP h.2⟩
  · rename_i c
    rw [if_neg c] at h
    intro v w hv hw
    obtain ⟨f1, f2, f3⟩ := h
    obtain ⟨a, b⟩ := matchCol_found tos k1 kP (fun x hx => f3 x (by simp [hx])) hv
    obtain ⟨a', b'⟩ := matchCol_found tos k2 kP (fun x hx => f3 x (by simp [hx])) hw
    rw [List.length_append] at f1
    refine ⟨by rw [List.length_append]; omega, fun t ht => ?_⟩
    rcases List.mem_append.1 ht with ht | ht
    · exact ⟨(b t ht).1, by have := (b t ht).2; omega⟩
    · exact ⟨(b' t ht).1, by have := (b' t ht).2; omega⟩

theorem positions_coords {xyz : List (List α)} (h : xyz = [] ∨ ∃ rows, Positions xyz rows) :
    Safe (fun m => ∃ rows, Positions xyz rows ∧ CoordsOf m rows) (ofVecVec xyz) := by
  rcases h with rfl | ⟨rows, h⟩
  · rw [(C04_ofVecVec ([] : List (List α))).1 rfl]; exact .throw _
  · obtain ⟨m, e, w⟩ := coords_ok rows
    have h' := h
    unfold Positions at h'
    rw [h', e]
    exact .ok ⟨rows, rfl, ⟨w.1, w.2.1, w.2.2.1, w.2.2.2.1, w.2.2.2.2⟩⟩

/-- `coupling` is free of undefined behaviour if the dimer's log file has an overlap table and all atoms are found, should all
three log files have tables of populations. -/
theorem coupling_safe (tos : α → β) (par : Params.Params) {prP pr1 pr2 : PunData α} {lrP lr1 lr2 : LogData α} (gP : GoodP prP)
    (g1 : GoodP pr1) (g2 : GoodP pr2) (gS : GoodS lrP) (xP : GoodX lrP) (x1 : GoodX lr1) (x2 : GoodX lr2)
    (hS : lrP.getOverlapMatrix ≠ .ub)
    (ha : HavePopulations lrP lr1 lr2 → ∀ rows1 rows2 rowsP, Positions lr1.getCoords rows1 → Positions lr2.getCoords rows2 →
      Positions lrP.getCoords rowsP →
      AtomsFound tos par.counterPoise rows1 rows2 rowsP lr2.getBasisFuncCount.length lrP.getBasisFuncCount.length) :
    Safe (fun _ => True) (Verif.coupling tos par prP pr1 pr2 lrP lr1 lr2) := by
  have loose : ∀ {d : PunData α} (sp), GoodP d → Safe Flat (d.getCoefsMatrix sp) := by
    intro d sp g
    unfold PunData.getCoefsMatrix
    split
    · rename_i e'; exact .ok ⟨(g _ _ e').1, (g _ _ e').2.2⟩
    · exact .throw _
  have hOE : ∀ (d : LogData α) sp, Safe (fun _ => True) (d.getOE sp) := by
    intro d sp; unfold LogData.getOE; split
    · exact .ok trivial
    · exact .throw _
  have hHO : ∀ (d : LogData α) sp, Safe (fun _ => True) (d.getHOMOLevel sp) := by
    intro d sp; unfold LogData.getHOMOLevel; split
    · exact .ok trivial
    · exact .throw _
  rw [Verif.coupling_def]
  refine Safe.bind (P := Flat) ?_ fun S fS => ?_
  · unfold LogData.getOverlapMatrix at hS ⊢
    split at hS
    · rename_i e'
      obtain ⟨n, h⟩ := gS _ e'
      exact .ok h.flat
    · exact absurd rfl hS
  refine (loose _ gP).bind fun coefP fP => (hOE _ _).bind fun vP _ => (ofVec_flat _).bind fun oeP fo => ?_
  refine (hHO _ _).bind fun h1 _ => (loose _ g1).bind fun coef1 f1 => (hOE _ _).bind fun v1 _ => (ofVec_flat _).bind fun oe1 _ => ?_
  refine (hHO _ _).bind fun h2 _ => (loose _ g2).bind fun coef2 f2 => (hOE _ _).bind fun v2 _ => (ofVec_flat _).bind fun oe2 _ => ?_
  refine (positions_coords xP).bind fun mP cP => (positions_coords x1).bind fun m1 c1 => (positions_coords x2).bind fun m2 c2 => ?_
  refine (new_safe _ _ _ _ _ _ _ _).bind fun T hT => ?_
  have fin : ∀ T' : TransferComplex α, T'.coef1 = T.coef1 ∧ T'.oe = T.oe ∧ Flat T'.coef2 ∧ Flat T'.coefP ∧ Flat T'.S →
      ∀ a b, Safe (fun _ => True) (T'.calcJ a b) := by
    rintro T' ⟨e1, e2, k1, k2, k3⟩ a b
    refine calcJ_safe ?_ k1 k2 k3 ?_ a b
    · rw [e1, hT]; exact f1
    · rw [e2, hT]; exact fo
  refine .ite (fun hb => ?_) (fun _ => ?_)
  · obtain ⟨rowsP, pP, cP⟩ := cP
    obtain ⟨rows1, p1, c1⟩ := c1
    obtain ⟨rows2, p2, c2⟩ := c2
    have hb' : HavePopulations lrP lr1 lr2 := ⟨by simpa using hb.1, by simpa using hb.2.1, by simpa using hb.2.2⟩
    refine (unscramble_safe tos ?_ ?_ ?_ c1.flat c2.flat cP.flat ?_).bind fun T' h' => fin T' h' _ _
    · rw [hT]; exact f2
    · rw [hT]; exact fP
    · rw [hT]; exact fS
    · rw [hT]; exact matched_of tos c1 c2 cP (ha hb' _ _ _ p1 p2 pP)
  · rw [Res.ok_bind]
    refine fin T ⟨rfl, rfl, ?_, ?_, ?_⟩ _ _
    · rw [hT]; exact f2
    · rw [hT]; exact fP
    · rw [hT]; exact fS

end
end Verif
