import Verif.Props.ParserOptions
import Verif.Spec.ArgLeft
/-
Property C134: setters that throw change nothing.
-/
namespace Verif.Args
open Strings

section
variable {S D : Type}

theorem setAllL_outcome {T : Type} (pr op : Str) (val : T) (ps : List (PropObj S T)) :
    (setAllL pr op val ps).outcome = setAll pr op val ps >>= fun x => .ok x.1 := by
  unfold setAll
  rw [bind_assoc]
  simp only [Res.ok_bind]
  induction ps with
  | nil => rfl
  | cons p ps ih =>
    rw [List.mapM_cons]
    simp only [bind_assoc]
    conv => lhs; unfold setAllL
    by_cases c : pr = p.vt.name
    · rw [if_pos c, if_pos c]
      generalize setAllL pr op val ps = x at ih
      obtain ⟨s, r⟩ := x
      cases setOpt p.opts op val with
      | ok o =>
        simp only [Res.ok_bind]
        unfold Left.outcome at ih ⊢
        cases hm : (ps.mapM _ : Res (List (PropObj S T))) <;> cases r <;> rw [hm] at ih <;> cases ih <;> rfl
      | _ => rfl
    · rw [if_neg c, if_neg c]
      generalize setAllL pr op val ps = x at ih
      obtain ⟨s, r⟩ := x
      simp only [Res.ok_bind]
      unfold Left.outcome at ih ⊢
      cases hm : (ps.mapM _ : Res (List (PropObj S T))) <;> cases r <;> rw [hm] at ih <;> cases ih <;> rfl

theorem setAllL_bind {T β : Type} (pr op : Str) (val : T) (ps : List (PropObj S T)) (f : List (PropObj S T) × Bool → Res β) :
    ((setAllL pr op val ps).2 >>= fun _ => f ((setAllL pr op val ps).1, hasProp pr ps)) = setAll pr op val ps >>= f := by
  have h := setAllL_outcome pr op val ps
  have hb : ∀ x, setAll pr op val ps = .ok x → x.2 = hasProp pr ps := by
    intro x hx
    unfold setAll at hx
    obtain ⟨y, -, hx⟩ := Res.bind_eq_ok.1 hx
    cases hx; rfl
  unfold Left.outcome at h
  generalize setAllL pr op val ps = x at h
  obtain ⟨s, r⟩ := x
  cases hs : setAll pr op val ps with
  | ok y =>
    rw [hs] at h
    have := hb y hs
    cases r <;> cases h
    show f (y.1, hasProp pr ps) = f y
    rw [← this]
  | _ => rw [hs] at h; cases r <;> cases h <;> rfl

theorem setIntL_outcome (a : ArgObj S D) (pr op : Str) (v : Int) : (a.setIntL pr op v).outcome = a.setInt pr op v := by
  unfold ArgObj.setIntL ArgObj.setInt
  rw [Left.outcome_andThen, Left.outcome_mk, bind_assoc]
  simp only [Res.ok_bind, Left.outcome_mk]
  rw [← setAllL_bind]
  congr 1; funext _
  cases hasProp pr a.ints <;> rfl

theorem setDoubleL_outcome (a : ArgObj S D) (pr op : Str) (v : D) : (a.setDoubleL pr op v).outcome = a.setDouble pr op v := by
  unfold ArgObj.setDoubleL ArgObj.setDouble
  rw [Left.outcome_andThen, Left.outcome_mk, bind_assoc]
  simp only [Res.ok_bind, Left.outcome_mk]
  rw [← setAllL_bind]
  congr 1; funext _
  cases hasProp pr a.doubles <;> rfl

theorem setSetL_outcome (a : ArgObj S D) (pr op : Str) (v : List Str) : (a.setSetL pr op v).outcome = a.setSet pr op v := by
  unfold ArgObj.setSetL ArgObj.setSet
  rw [Left.outcome_andThen, Left.outcome_mk, bind_assoc]
  simp only [Res.ok_bind, Left.outcome_mk]
  rw [← setAllL_bind]
  congr 1; funext _
  cases hasProp pr a.sets <;> rfl

theorem setVecL_outcome (a : ArgObj S D) (pr op : Str) (v : List Str) : (a.setVecL pr op v).outcome = a.setVec pr op v := by
  unfold ArgObj.setVecL ArgObj.setVec
  rw [Left.outcome_andThen, Left.outcome_mk, bind_assoc]
  simp only [Res.ok_bind, Left.outcome_mk]
  rw [← setAllL_bind]
  congr 1; funext _
  cases hasProp pr a.vecs <;> rfl

theorem setStrL_outcome (a : ArgObj S D) (pr op v : Str) : (a.setStrL pr op v).outcome = a.setStr pr op v := by
  unfold ArgObj.setStrL ArgObj.setStr
  simp only [Left.outcome_andThen, Left.outcome_mk, bind_assoc, Res.ok_bind]
  rw [← setAllL_bind]
  congr 1; funext _
  dsimp only
  rw [← setAllL_bind]
  congr 1; funext _
  dsimp only
  rw [← setAllL_bind]
  congr 1; funext _
  dsimp only
  cases (hasProp pr a.strs || hasProp pr a.vecs || hasProp pr a.sets) <;> rfl

/-- The names of the properties. -/
def namesOf {T : Type} (ps : List (PropObj S T)) : List Str := ps.map (·.vt.name)

theorem setAllL_absent {T : Type} {pr : Str} (op : Str) (val : T) {ps : List (PropObj S T)} (h : pr ∉ namesOf ps) : setAllL pr op val ps = (ps, .ok ()) := by
  induction ps with
  | nil => rfl
  | cons p ps ih =>
    unfold namesOf at h
    simp only [List.map_cons, List.mem_cons, not_or] at h
    unfold setAllL
    rw [if_neg h.1, ih h.2]

theorem hasProp_iff {T : Type} {pr : Str} {ps : List (PropObj S T)} : hasProp pr ps = true ↔ pr ∈ namesOf ps := by
  unfold hasProp namesOf
  rw [List.any_eq_true, List.mem_map]
  exact ⟨fun ⟨x, h1, h2⟩ => ⟨x, h1, (beq_iff_eq.1 h2).symm⟩, fun ⟨x, h1, h2⟩ => ⟨x, h1, beq_iff_eq.2 h2.symm⟩⟩

/-- Either every property of the name took the value, or nothing happened. -/
theorem setAllL_left {T : Type} (pr op : Str) (val : T) {ps : List (PropObj S T)} (h : (namesOf ps).Nodup) :
    (setAllL pr op val ps).2 = .ok () ∨ (setAllL pr op val ps).1 = ps := by
  induction ps with
  | nil => exact .inr rfl
  | cons p ps ih =>
    unfold namesOf at h
    rw [List.map_cons, List.nodup_cons] at h
    unfold setAllL
    by_cases c : pr = p.vt.name
    · rw [if_pos c]
      have ab : pr ∉ namesOf ps := by rw [c]; exact h.1
      rw [setAllL_absent op val ab]
      cases setOpt p.opts op val with
      | ok o => exact .inl rfl
      | _ => exact .inr rfl
    · rw [if_neg c]
      rcases ih h.2 with k | k
      · exact .inl k
      · exact .inr (by dsimp only; rw [k])

/-- If it returned, or did nothing, then a check that fails only if there is no such property does not spoil this. -/
theorem checked {T σ : Type} {pr op : Str} {val : T} {ps : List (PropObj S T)} (g : List (PropObj S T) → σ) (h : (namesOf ps).Nodup) {e : Exn}
    (ht : (Left.andThen (g (setAllL pr op val ps).1, (setAllL pr op val ps).2) fun b =>
      (b, if hasProp pr ps then .ok () else .throw .invalidArgument)).2 = .throw e) :
    (Left.andThen (g (setAllL pr op val ps).1, (setAllL pr op val ps).2) fun b =>
      (b, if hasProp pr ps then .ok () else .throw .invalidArgument)).1 = g ps := by
  rcases setAllL_left pr op val h with k | k
  · unfold Left.andThen at ht ⊢
    dsimp only at ht ⊢
    rw [k] at ht ⊢
    dsimp only at ht ⊢
    by_cases c : hasProp pr ps = true
    · rw [if_pos c] at ht; cases ht
    · rw [setAllL_absent op val fun hm => c (hasProp_iff.2 hm)]
  · unfold Left.andThen
    dsimp only
    rw [k]
    cases (setAllL pr op val ps).2 <;> rfl

theorem nodup_parts {a : ArgObj S D} (h : a.properties.Nodup) : (namesOf a.ints).Nodup ∧ (namesOf a.doubles).Nodup ∧ (namesOf a.sets).Nodup ∧
    (namesOf a.vecs).Nodup ∧ (namesOf a.strs).Nodup ∧ (∀ x ∈ namesOf a.strs, x ∉ namesOf a.vecs ∧ x ∉ namesOf a.sets) ∧
    ∀ x ∈ namesOf a.vecs, x ∉ namesOf a.sets := by
  unfold namesOf
  replace h : (a.ints.map (·.vt.name) ++ a.doubles.map (·.vt.name) ++ a.sizes.map (·.vt.name) ++
      a.strs.map (·.vt.name) ++ a.sets.map (·.vt.name) ++ a.vecs.map (·.vt.name)).Nodup := by
    unfold ArgObj.properties at h
    dsimp only at h
    split at h
    · rename_i h0
      rw [List.length_eq_zero_iff.1 h0]
      exact List.nodup_nil
    · exact h
  simp only [List.nodup_append, List.mem_append] at h
  obtain ⟨⟨⟨⟨⟨h1, h2, -⟩, h3, -⟩, h4, -⟩, h5, h6⟩, h7, h8⟩ := h
  refine ⟨h1, h2, h5, h7, h4, fun x hx => ⟨fun hy => h8 x (.inl (.inr hx)) x hy rfl, fun hy => h6 x (.inr hx) x hy rfl⟩, fun x hx hy => h8 x (.inr hy) x hx rfl⟩

theorem setIntL_left {a : ArgObj S D} (h : a.properties.Nodup) {pr op : Str} {v : Int} {e : Exn} (ht : (a.setIntL pr op v).2 = .throw e) :
    (a.setIntL pr op v).1 = a := by
  unfold ArgObj.setIntL at ht ⊢
  exact checked (g := fun x => { a with ints := x }) (nodup_parts h).1 ht

theorem setDoubleL_left {a : ArgObj S D} (h : a.properties.Nodup) {pr op : Str} {v : D} {e : Exn} (ht : (a.setDoubleL pr op v).2 = .throw e) :
    (a.setDoubleL pr op v).1 = a := by
  unfold ArgObj.setDoubleL at ht ⊢
  exact checked (g := fun x => { a with doubles := x }) (nodup_parts h).2.1 ht

theorem setSetL_left {a : ArgObj S D} (h : a.properties.Nodup) {pr op : Str} {v : List Str} {e : Exn} (ht : (a.setSetL pr op v).2 = .throw e) :
    (a.setSetL pr op v).1 = a := by
  unfold ArgObj.setSetL at ht ⊢
  exact checked (g := fun x => { a with sets := x }) (nodup_parts h).2.2.1 ht

theorem setVecL_left {a : ArgObj S D} (h : a.properties.Nodup) {pr op : Str} {v : List Str} {e : Exn} (ht : (a.setVecL pr op v).2 = .throw e) :
    (a.setVecL pr op v).1 = a := by
  unfold ArgObj.setVecL at ht ⊢
  exact checked (g := fun x => { a with vecs := x }) (nodup_parts h).2.2.2.1 ht

theorem setStrL_left {a : ArgObj S D} (h : a.properties.Nodup) {pr op v : Str} {e : Exn} (ht : (a.setStrL pr op v).2 = .throw e) :
    (a.setStrL pr op v).1 = a := by
  obtain ⟨-, -, n1, n2, n3, d1, d2⟩ := nodup_parts h
  unfold ArgObj.setStrL at ht ⊢
  by_cases c1 : pr ∈ namesOf a.strs
  · have hh : hasProp pr a.strs = true := hasProp_iff.2 c1
    rcases setAllL_left pr op v n3 with k | k
    · exfalso
      simp only [Left.andThen, k, setAllL_absent op [v] (d1 pr c1).1, setAllL_absent op [v] (d1 pr c1).2, hh, Bool.true_or, if_true] at ht
      cases ht
    · simp only [Left.andThen, k] at ht ⊢
      cases hr : (setAllL pr op v a.strs).2 with
      | ok u =>
        exfalso
        simp only [hr, setAllL_absent op [v] (d1 pr c1).1, setAllL_absent op [v] (d1 pr c1).2, hh, Bool.true_or, if_true] at ht
        cases ht
      | _ => rfl
  · rw [setAllL_absent op v c1] at ht ⊢
    have f1 : hasProp pr a.strs = false := by rw [← Bool.not_eq_true, hasProp_iff]; exact c1
    by_cases c2 : pr ∈ namesOf a.vecs
    · have hh : hasProp pr a.vecs = true := hasProp_iff.2 c2
      rcases setAllL_left pr op [v] n2 with k | k
      · exfalso
        simp only [Left.andThen, k, setAllL_absent op [v] (d2 pr c2), hh, Bool.true_or, Bool.or_true, if_true] at ht
        cases ht
      · simp only [Left.andThen, k] at ht ⊢
        cases hr : (setAllL pr op [v] a.vecs).2 with
        | ok u =>
          exfalso
          simp only [hr, setAllL_absent op [v] (d2 pr c2), hh, Bool.true_or, Bool.or_true, if_true] at ht
          cases ht
        | _ => rfl
    · simp only [Left.andThen, setAllL_absent op [v] c2] at ht ⊢
      have f2 : hasProp pr a.vecs = false := by rw [← Bool.not_eq_true, hasProp_iff]; exact c2
      by_cases c3 : pr ∈ namesOf a.sets
      · have hh : hasProp pr a.sets = true := hasProp_iff.2 c3
        rcases setAllL_left pr op [v] n1 with k | k
        · exfalso
          simp only [k, hh, Bool.or_true, if_true] at ht
          cases ht
        · simp only [k] at ht ⊢
          cases hr : (setAllL pr op [v] a.sets).2 <;> rfl
      · simp only [setAllL_absent op [v] c3]

theorem set_same {V : Type} {m : Map V} (hs : Readers.SortedSet (m.map (·.1))) {k : Str} {v : V} (h : m.get k = some v) : m.set k v = m := by
  induction m with
  | nil => cases h
  | cons x m ih =>
    obtain ⟨k', v'⟩ := x
    unfold Map.get at h
    unfold Map.set
    by_cases c : k = k'
    · rw [if_pos c] at h ⊢
      cases h; rw [c]
    · rw [if_neg c] at h ⊢
      have hs' := List.pairwise_cons.1 hs
      have hk : k ∈ m.map (·.1) := List.mem_map.2 ⟨_, Map.get_mem h, rfl⟩
      have hlt := hs'.1 k hk
      have : ¬ strLt k k' = true := by
        intro hc
        have := Readers.strLt_trans hlt hc
        rw [Readers.strLt_irrefl] at this
        cases this
      rw [if_neg this, ih hs'.2 h]

theorem updArgL_outcome {m : Map (ArgObj S D)} {flag : Str} {new : ArgObj S D} {f : ArgObj S D → Left (ArgObj S D)} {g : ArgObj S D → Res (ArgObj S D)}
    (h : ∀ a, (f a).outcome = g a) : (updArgL m flag new f).outcome = updArg m flag new g := by
  unfold updArgL updArg
  cases m.get flag with
  | some a =>
    simp only [Option.getD_some]
    rw [← h]
    unfold Left.outcome
    cases (f a).2 <;> rfl
  | none =>
    simp only [Option.getD_none]
    rw [← h]
    unfold Left.outcome
    cases hr : (f new).2 <;> rfl

theorem updArgL_left {m : Map (ArgObj S D)} {flag : Str} {new : ArgObj S D} {f : ArgObj S D → Left (ArgObj S D)} (hm : AllFrom new m)
    (h : ∀ a e, Reached new a → (f a).2 = .throw e → (f a).1 = a) {e : Exn} (ht : (updArgL m flag new f).2 = .throw e) :
    (updArgL m flag new f).1 = m := by
  unfold updArgL at ht ⊢
  cases hf : m.get flag with
  | some a =>
    rw [hf] at ht
    dsimp only at ht ⊢
    rw [h a e (hm _ _ hf) ht]
    exact set_same hm.sorted hf
  | none =>
    rw [hf] at ht
    dsimp only at ht ⊢
    cases hr : (f new).2 with
    | ok u => rw [hr] at ht; cases ht
    | _ => rfl

end

section
variable {D : Type} [Dbl D]

theorem Reached.apart {S : Type} {a₀ a : ArgObj S D} {table : List (Str × Str × OptType)} (h0 : NewArg a₀ table) (h : Reached a₀ a) : a.properties.Nodup :=
  (C89_properties h0 h).2.1

/-- C134: setting an option of an argument that throws leaves the argument as it was. -/
theorem C134_argument {S : Type} {a₀ a : ArgObj S D} {table : List (Str × Str × OptType)} (h0 : NewArg a₀ table) (h : Reached a₀ a) (pr op : Str) :
    (∀ v, AllOrNothing (a.setIntL pr op v) (a.setInt pr op v) a) ∧ (∀ v, AllOrNothing (a.setDoubleL pr op v) (a.setDouble pr op v) a) ∧
    (∀ v, AllOrNothing (a.setStrL pr op v) (a.setStr pr op v) a) ∧ (∀ v, AllOrNothing (a.setSetL pr op v) (a.setSet pr op v) a) ∧
    ∀ v, AllOrNothing (a.setVecL pr op v) (a.setVec pr op v) a :=
  ⟨fun v => ⟨setIntL_outcome a pr op v, fun _ => setIntL_left (h.apart h0)⟩, fun v => ⟨setDoubleL_outcome a pr op v, fun _ => setDoubleL_left (h.apart h0)⟩,
    fun v => ⟨setStrL_outcome a pr op v, fun _ => setStrL_left (h.apart h0)⟩, fun v => ⟨setSetL_outcome a pr op v, fun _ => setSetL_left (h.apart h0)⟩,
    fun v => ⟨setVecL_outcome a pr op v, fun _ => setVecL_left (h.apart h0)⟩⟩

theorem opt_outcome {σ τ : Type} {x : Left σ} {r : Res σ} {g : σ → τ} (h : x.outcome = r) : Left.outcome (g x.1, x.2) = r >>= fun m => .ok (g m) := by
  rw [← h]
  unfold Left.outcome
  cases x.2 <;> rfl

theorem opt_all {S : Type} {p : Parser D} {new : ArgObj S D} {m : Map (ArgObj S D)} (hm : AllFrom new m) {flag : Str}
    {f : ArgObj S D → Left (ArgObj S D)} {g : ArgObj S D → Res (ArgObj S D)} (hf : ∀ a, (f a).outcome = g a)
    (hl : ∀ a e, Reached new a → (f a).2 = .throw e → (f a).1 = a) (put : Map (ArgObj S D) → Parser D) (hp : put m = p) :
    AllOrNothing (put (updArgL m flag new f).1, (updArgL m flag new f).2) (updArg m flag new g >>= fun m => .ok (put m)) p :=
  ⟨opt_outcome (updArgL_outcome hf), fun e he => by dsimp only at he ⊢; rw [updArgL_left hm hl he, hp]⟩

theorem throw_all {σ : Type} (p : σ) (e : Exn) : AllOrNothing (p, .throw e) (.throw e) p := ⟨rfl, fun _ _ => rfl⟩

/-- C134: giving a flag an argument, or setting an option of its argument, either succeeds or leaves the parser exactly as it was. -/
theorem C134_setters {p : Parser D} (h : ParserReached p) (flag arg pr op : Str) :
    AllOrNothing (addFlagArgL p flag arg) (addFlagArg p flag arg) p ∧
    (∀ v, AllOrNothing (setOptIntL p flag arg pr op v) (setOptInt p flag arg pr op v) p) ∧
    (∀ v, AllOrNothing (setOptDoubleL p flag arg pr op v) (setOptDouble p flag arg pr op v) p) ∧
    (∀ v, AllOrNothing (setOptStrL p flag arg pr op v) (setOptStr p flag arg pr op v) p) ∧
    (∀ v, AllOrNothing (setOptSetL p flag arg pr op v) (setOptSet p flag arg pr op v) p) ∧
    ∀ v, AllOrNothing (setOptVecL p flag arg pr op v) (setOptVec p flag arg pr op v) p := by
  have ok := h.argsOk
  refine ⟨?_, fun v => ?_, fun v => ?_, fun v => ?_, fun v => ?_, fun v => ?_⟩
  · unfold addFlagArgL
    cases addFlagArg p flag arg with
    | ok q => exact ⟨rfl, fun e he => by cases he⟩
    | _ => exact ⟨rfl, fun e he => rfl⟩
  · unfold setOptIntL setOptInt
    split
    · exact opt_all ok.ints (fun a => setIntL_outcome a _ _ _) (fun a e ha => setIntL_left (ha.apart .int)) (fun m => { p with intArg := m }) rfl
    · split
      · exact opt_all ok.strs (fun a => setIntL_outcome a _ _ _) (fun a e ha => setIntL_left (ha.apart .string)) (fun m => { p with strArg := m }) rfl
      · split
        · refine opt_all ok.switches (fun a => ?_) (fun a e ha he => ?_) (fun m => { p with switchArg := m }) rfl
          · split
            · exact setStrL_outcome a _ _ _
            · split
              · exact setStrL_outcome a _ _ _
              · rfl
          · split at he
            · rename_i c; rw [if_pos c]; exact setStrL_left (ha.apart .switch) he
            · rename_i c; rw [if_neg c]
              split at he
              · rename_i c; rw [if_pos c]; exact setStrL_left (ha.apart .switch) he
              · rename_i c; rw [if_neg c]
        · split
          · exact opt_all ok.files (fun a => setIntL_outcome a _ _ _) (fun a e ha => setIntL_left (ha.apart .file)) (fun m => { p with fileArg := m }) rfl
          · exact throw_all _ _
  · unfold setOptDoubleL setOptDouble
    split
    · exact opt_all ok.doubles (fun a => setDoubleL_outcome a _ _ _) (fun a e ha => setDoubleL_left (ha.apart .double)) (fun m => { p with doubleArg := m }) rfl
    · split
      · exact opt_all ok.strs (fun a => setDoubleL_outcome a _ _ _) (fun a e ha => setDoubleL_left (ha.apart .string)) (fun m => { p with strArg := m }) rfl
      · exact throw_all _ _
  · unfold setOptStrL setOptStr
    split
    · refine opt_all ok.files (fun a => ?_) (fun a e ha he => ?_) (fun m => { p with fileArg := m }) rfl
      · split
        · exact setSetL_outcome a _ _ _
        · split
          · exact setVecL_outcome a _ _ _
          · exact setStrL_outcome a _ _ _
      · split at he
        · rename_i c; rw [if_pos c]; exact setSetL_left (ha.apart .file) he
        · rename_i c; rw [if_neg c]
          split at he
          · rename_i c; rw [if_pos c]; exact setVecL_left (ha.apart .file) he
          · rename_i c; rw [if_neg c]; exact setStrL_left (ha.apart .file) he
    · split
      · refine opt_all ok.switches (fun a => ?_) (fun a e ha he => ?_) (fun m => { p with switchArg := m }) rfl
        · split
          · rfl
          · exact setStrL_outcome a _ _ _
        · split at he
          · rename_i c; rw [if_pos c]
          · rename_i c; rw [if_neg c]; exact setStrL_left (ha.apart .switch) he
      · split
        · exact opt_all ok.strs (fun a => setSetL_outcome a _ _ _) (fun a e ha => setSetL_left (ha.apart .string)) (fun m => { p with strArg := m }) rfl
        · exact throw_all _ _
  · unfold setOptSetL setOptSet
    split
    · exact opt_all ok.files (fun a => setSetL_outcome a _ _ _) (fun a e ha => setSetL_left (ha.apart .file)) (fun m => { p with fileArg := m }) rfl
    · split
      · exact opt_all ok.strs (fun a => setSetL_outcome a _ _ _) (fun a e ha => setSetL_left (ha.apart .string)) (fun m => { p with strArg := m }) rfl
      · exact throw_all _ _
  · unfold setOptVecL setOptVec
    split
    · exact opt_all ok.files (fun a => setVecL_outcome a _ _ _) (fun a e ha => setVecL_left (ha.apart .file)) (fun m => { p with fileArg := m }) rfl
    · exact throw_all _ _

end
end Verif.Args
