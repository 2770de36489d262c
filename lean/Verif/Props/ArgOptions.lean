import Verif.Spec.ArgOptions
import Verif.Props.Strings
import Mathlib.Data.List.Forall2
/-
Properties C89, C90: the options of arguments as seen through the arguments.
-/
namespace Verif.Args
open Strings

/-! ### An invariant of arguments -/
section
variable {S T D : Type}

/-- The options a property object holds are those it declares. -/
def Complete (vt : VTable S T) (o : Map T) : Prop := ∀ k, (o.get k).isSome = true ↔ k ∈ vt.optNames

/-- Validation keeps the set of options. -/
def Keeps (vt : VTable S T) : Prop :=
  ∀ fs v o o', Complete vt o → vt.valid fs v o = .ok o' → Complete vt o'

/-- A list of properties has the given classes, and each property holds its options. -/
def ShapeL (vts : List (VTable S T)) (ps : List (PropObj S T)) : Prop :=
  ps.map (·.vt) = vts ∧ ∀ p ∈ ps, Complete p.vt p.opts

theorem mapM_forall {A B : Type} {f : A → Res B} : ∀ {l : List A} {l' : List B}, l.mapM f = .ok l' →
    List.Forall₂ (fun a b => f a = .ok b) l l'
  | [], l', h => by
    rw [List.mapM_nil] at h
    cases h; exact .nil
  | a :: l, l', h => by
    rw [List.mapM_cons] at h
    obtain ⟨b, hb, h⟩ := Res.bind_eq_ok.1 h
    obtain ⟨bs, hbs, h⟩ := Res.bind_eq_ok.1 h
    cases h
    exact .cons hb (mapM_forall hbs)

theorem ShapeL.of_forall {vts : List (VTable S T)} {ps qs : List (PropObj S T)} (h : ShapeL vts ps)
    (hf : List.Forall₂ (fun p q => q.vt = p.vt ∧ (p.vt ∈ vts → Complete p.vt p.opts → Complete p.vt q.opts)) ps qs) :
    ShapeL vts qs := by
  have hin : ∀ p ∈ ps, p.vt ∈ vts := by intro p hp; rw [← h.1]; exact List.mem_map_of_mem hp
  obtain ⟨h1, h2⟩ := h
  constructor
  · rw [← h1]; clear h1 h2 hin
    induction hf with
    | nil => rfl
    | cons e _ ih => simp only [List.map_cons, e.1, ih]
  · clear h1
    induction hf with
    | nil => intro p hp; cases hp
    | @cons a b l₁ l₂ e _ ih =>
      intro q hq
      rcases List.mem_cons.1 hq with rfl | hq
      · rw [e.1]; exact e.2 (hin _ (by simp)) (h2 _ (by simp))
      · exact ih (fun p hp => hin p (by simp [hp])) (fun p hp => h2 p (by simp [hp])) q hq

theorem ShapeL.valid {vts : List (VTable S T)} {ps qs : List (PropObj S T)} (hk : ∀ vt ∈ vts, Keeps vt) (h : ShapeL vts ps)
    {fs : FS} {v : S} (hv : validAll fs v ps = .ok qs) : ShapeL vts qs := by
  refine h.of_forall ((mapM_forall hv).imp (fun p q e => ?_))
  obtain ⟨o, ho, e⟩ := Res.bind_eq_ok.1 e
  cases e
  exact ⟨rfl, fun hp hc => hk _ hp _ _ _ _ hc ho⟩

theorem ShapeL.validL {vts : List (VTable S T)} {ps : List (PropObj S T)} (hk : ∀ vt ∈ vts, Keeps vt) (h : ShapeL vts ps)
    (fs : FS) (v : S) : ShapeL vts (validAllL fs v ps).1 := by
  refine h.of_forall ?_
  clear h
  induction ps with
  | nil => exact .nil
  | cons p ps ih =>
    unfold validAllL
    cases e : p.vt.valid fs v p.opts with
    | ok o => exact .cons ⟨rfl, fun hp hc => hk _ hp _ _ _ _ hc e⟩ ih
    | _ => exact List.forall₂_same.2 fun q _ => ⟨rfl, fun _ hc => hc⟩

theorem setOpt_complete {vt : VTable S T} {o o' : Map T} {k : Str} {v : T} (h : Complete vt o) (e : setOpt o k v = .ok o') :
    Complete vt o' := by
  unfold setOpt at e
  cases hk : o.get k with
  | none => rw [hk] at e; cases e
  | some x =>
    rw [hk] at e; cases e
    intro k'
    rw [Map.get_set]
    by_cases hkk : k' = k
    · subst hkk; simp only [if_true, Option.isSome_some, true_iff]; rw [← h k', hk]; rfl
    · rw [if_neg hkk]; exact h k'

theorem ShapeL.set {vts : List (VTable S T)} {ps qs : List (PropObj S T)} (h : ShapeL vts ps) {p o : Str} {v : T} {b : Bool}
    (hs : setAll p o v ps = .ok (qs, b)) : ShapeL vts qs := by
  unfold setAll at hs
  obtain ⟨qs', h1, h2⟩ := Res.bind_eq_ok.1 hs
  cases h2
  refine h.of_forall ((mapM_forall h1).imp (fun p q e => ?_))
  split at e
  · obtain ⟨o, ho, e⟩ := Res.bind_eq_ok.1 e
    cases e
    exact ⟨rfl, fun _ hc => setOpt_complete hc ho⟩
  · cases e; exact ⟨rfl, fun _ hc => hc⟩

end

section
variable {S D : Type}

/-- An argument with the properties of `a₀`, each holding its options. -/
structure Shape (a₀ a : ArgObj S D) : Prop where
  name : a.name = a₀.name
  ints : ShapeL (a₀.ints.map (·.vt)) a.ints
  doubles : ShapeL (a₀.doubles.map (·.vt)) a.doubles
  sizes : ShapeL (a₀.sizes.map (·.vt)) a.sizes
  strs : ShapeL (a₀.strs.map (·.vt)) a.strs
  sets : ShapeL (a₀.sets.map (·.vt)) a.sets
  vecs : ShapeL (a₀.vecs.map (·.vt)) a.vecs

/-- All properties keep their options when validating. -/
structure AllKeep (a₀ : ArgObj S D) : Prop where
  ints : ∀ vt ∈ a₀.ints.map (·.vt), Keeps vt
  doubles : ∀ vt ∈ a₀.doubles.map (·.vt), Keeps vt
  sizes : ∀ vt ∈ a₀.sizes.map (·.vt), Keeps vt
  strs : ∀ vt ∈ a₀.strs.map (·.vt), Keeps vt
  sets : ∀ vt ∈ a₀.sets.map (·.vt), Keeps vt
  vecs : ∀ vt ∈ a₀.vecs.map (·.vt), Keeps vt

theorem andThen_inv {σ : Type} {P : σ → Prop} {x : Left σ} {f : σ → Left σ} (h : P x.1) (hf : ∀ s, P s → P (f s).1) : P (x.andThen f).1 := by
  unfold Left.andThen
  split
  · exact hf _ h
  · exact h

theorem Shape.validL {a₀ a : ArgObj S D} (hk : AllKeep a₀) (h : Shape a₀ a) (fs : FS) (v : S) : Shape a₀ (a.validL fs v).1 := by
  unfold ArgObj.validL
  refine andThen_inv (P := Shape a₀) ⟨h.name, h.ints.validL hk.ints fs v, h.doubles, h.sizes, h.strs, h.sets, h.vecs⟩ fun a h => ?_
  refine andThen_inv (P := Shape a₀) ⟨h.name, h.ints, h.doubles.validL hk.doubles fs v, h.sizes, h.strs, h.sets, h.vecs⟩ fun a h => ?_
  refine andThen_inv (P := Shape a₀) ⟨h.name, h.ints, h.doubles, h.sizes.validL hk.sizes fs v, h.strs, h.sets, h.vecs⟩ fun a h => ?_
  refine andThen_inv (P := Shape a₀) ⟨h.name, h.ints, h.doubles, h.sizes, h.strs.validL hk.strs fs v, h.sets, h.vecs⟩ fun a h => ?_
  refine andThen_inv (P := Shape a₀) ⟨h.name, h.ints, h.doubles, h.sizes, h.strs, h.sets.validL hk.sets fs v, h.vecs⟩ fun a h => ?_
  exact ⟨h.name, h.ints, h.doubles, h.sizes, h.strs, h.sets, h.vecs.validL hk.vecs fs v⟩

theorem Shape.reached {a₀ a : ArgObj S D} (h0 : Shape a₀ a₀) (hk : AllKeep a₀) (h : Reached a₀ a) : Shape a₀ a := by
  induction h with
  | refl => exact h0
  | valid fs v _ e ih =>
    obtain ⟨l1, e1, e⟩ := Res.bind_eq_ok.1 e
    obtain ⟨l2, e2, e⟩ := Res.bind_eq_ok.1 e
    obtain ⟨l3, e3, e⟩ := Res.bind_eq_ok.1 e
    obtain ⟨l4, e4, e⟩ := Res.bind_eq_ok.1 e
    obtain ⟨l5, e5, e⟩ := Res.bind_eq_ok.1 e
    obtain ⟨l6, e6, e⟩ := Res.bind_eq_ok.1 e
    cases e
    exact ⟨ih.name, ih.ints.valid hk.ints e1, ih.doubles.valid hk.doubles e2, ih.sizes.valid hk.sizes e3,
      ih.strs.valid hk.strs e4, ih.sets.valid hk.sets e5, ih.vecs.valid hk.vecs e6⟩
  | refused fs v _ e ih =>
    have := ih.validL hk fs v
    rw [e] at this
    exact this
  | setInt p o v _ e ih =>
    obtain ⟨⟨l, b⟩, e1, e⟩ := Res.bind_eq_ok.1 e
    dsimp only at e
    split at e
    · cases e
    · cases e; exact { ih with ints := ih.ints.set e1 }
  | setDouble p o v _ e ih =>
    obtain ⟨⟨l, b⟩, e1, e⟩ := Res.bind_eq_ok.1 e
    dsimp only at e
    split at e
    · cases e
    · cases e; exact { ih with doubles := ih.doubles.set e1 }
  | setSet p o v _ e ih =>
    obtain ⟨⟨l, b⟩, e1, e⟩ := Res.bind_eq_ok.1 e
    dsimp only at e
    split at e
    · cases e
    · cases e; exact { ih with sets := ih.sets.set e1 }
  | setVec p o v _ e ih =>
    obtain ⟨⟨l, b⟩, e1, e⟩ := Res.bind_eq_ok.1 e
    dsimp only at e
    split at e
    · cases e
    · cases e; exact { ih with vecs := ih.vecs.set e1 }
  | setStr p o v _ e ih =>
    obtain ⟨⟨l1, b1⟩, e1, e⟩ := Res.bind_eq_ok.1 e
    obtain ⟨⟨l2, b2⟩, e2, e⟩ := Res.bind_eq_ok.1 e
    obtain ⟨⟨l3, b3⟩, e3, e⟩ := Res.bind_eq_ok.1 e
    dsimp only at e
    split at e
    · cases e
    · cases e; exact { ih with strs := ih.strs.set e1, vecs := ih.vecs.set e2, sets := ih.sets.set e3 }

/-! ### The seven classes -/

theorem keeps_of_same {T : Type} {vt : VTable S T} (h : ∀ fs v o o', vt.valid fs v o = .ok o' → o' = o) : Keeps vt := by
  intro fs v o o' hc e
  rw [h _ _ _ _ e]; exact hc

theorem keeps_int : Keeps intVT := by
  refine keeps_of_same (fun fs v o o' e => ?_)
  obtain ⟨x, -, e⟩ := Res.bind_eq_ok.1 (show intValid fs v o = _ from e)
  split at e
  · cases e
  · obtain ⟨y, -, e⟩ := Res.bind_eq_ok.1 e
    split at e <;> cases e; rfl

theorem keeps_double [Dbl D] : Keeps (doubleVT (D := D)) := by
  refine keeps_of_same (fun fs v o o' e => ?_)
  obtain ⟨x, -, e⟩ := Res.bind_eq_ok.1 (show doubleValid fs v o = _ from e)
  split at e
  · cases e
  · obtain ⟨y, -, e⟩ := Res.bind_eq_ok.1 e
    split at e <;> cases e; rfl

theorem keeps_string : Keeps stringVT := by
  refine keeps_of_same (fun fs v o o' e => ?_)
  obtain ⟨x, -, e⟩ := Res.bind_eq_ok.1 (show stringValid fs v o = _ from e)
  split at e
  · cases e
  · obtain ⟨y, -, e⟩ := Res.bind_eq_ok.1 e
    split at e <;> cases e; rfl

theorem keeps_choice : Keeps choiceVT := by
  refine keeps_of_same (fun fs v o o' e => ?_)
  obtain ⟨x, -, e⟩ := Res.bind_eq_ok.1 (show choiceValid fs v o = _ from e)
  obtain ⟨y, -, e⟩ := Res.bind_eq_ok.1 e
  split at e
  · obtain ⟨z, -, e⟩ := Res.bind_eq_ok.1 e
    split at e <;> cases e; rfl
  · cases e; rfl

theorem keeps_switch : Keeps switchVT := by
  refine keeps_of_same (fun fs v o o' e => ?_)
  have e : switchValid fs v o = .ok o' := e
  unfold switchValid at e
  split at e <;> cases e; rfl

theorem keeps_fileExt : Keeps fileExtVT := by
  refine keeps_of_same (fun fs v o o' e => ?_)
  obtain ⟨x, -, e⟩ := Res.bind_eq_ok.1 (show fileExtValid fs v o = _ from e)
  obtain ⟨y, -, e⟩ := Res.bind_eq_ok.1 e
  obtain ⟨z, -, e⟩ := Res.bind_eq_ok.1 e
  obtain ⟨z, -, e⟩ := Res.bind_eq_ok.1 e
  obtain ⟨z, -, e⟩ := Res.bind_eq_ok.1 e
  cases e; rfl

theorem complete_set {T : Type} {vt : VTable S T} {o : Map T} (h : Complete vt o) {k : Str} (hk : k ∈ vt.optNames) (v : T) :
    Complete vt (o.set k v) := by
  intro k'
  rw [Map.get_set]
  by_cases hkk : k' = k
  · subst hkk; simp [hk]
  · rw [if_neg hkk]; exact h k'

theorem keeps_fileExist : Keeps fileExistVT := by
  intro fs v o o' hc e
  obtain ⟨x, -, e⟩ := Res.bind_eq_ok.1 (show fileExistValid fs v o = _ from e)
  have hk : (lit "FILE_DOES_EXIST") ∈ fileExistVT.optNames := by decide
  split at e
  · split at e
    · cases e
    · cases e; exact complete_set hc hk _
  · split at e
    · cases e; exact complete_set hc hk _
    · cases e; exact hc

theorem keeps_sister : Keeps sisterVT := by
  intro fs v o o' hc e
  obtain ⟨x, -, e⟩ := Res.bind_eq_ok.1 (show sisterValid fs v o = _ from e)
  obtain ⟨y, -, e⟩ := Res.bind_eq_ok.1 e
  obtain ⟨z, -, e⟩ := Res.bind_eq_ok.1 e
  obtain ⟨w, -, e⟩ := Res.bind_eq_ok.1 e
  cases e
  exact complete_set (complete_set (complete_set (complete_set hc (by decide) _) (by decide) _) (by decide) _) (by decide) _

/-! ### Reading the options -/

/-- The object of a singleton list of a shape. -/
theorem ShapeL.one {T : Type} {vt : VTable S T} {ps : List (PropObj S T)} (h : ShapeL [vt] ps) :
    ∃ o, ps = [⟨vt, o⟩] ∧ Complete vt o := by
  obtain ⟨h1, h2⟩ := h
  match ps, h1, h2 with
  | [⟨vt', o⟩], h1, h2 =>
    have : vt' = vt := by simpa using h1
    subst this
    exact ⟨o, rfl, h2 ⟨vt', o⟩ (List.mem_singleton.2 rfl)⟩

theorem ShapeL.nil {T : Type} {ps : List (PropObj S T)} (h : ShapeL [] ps) : ps = [] := by
  simpa using h.1

theorem shapeL_nil {T : Type} : ShapeL ([] : List (VTable S T)) [] := ⟨rfl, by simp⟩

theorem Complete.get {T : Type} {vt : VTable S T} {o : Map T} (h : Complete vt o) {k : Str} (hk : k ∈ vt.optNames) :
    ∃ v, o.get k = some v := Option.isSome_iff_exists.1 ((h k).2 hk)


/-- The rows of a table: (property, option) of the given classes. -/
def rowsOf {T : Type} (vts : List (VTable S T)) : List (Str × Str) :=
  vts.flatMap (fun vt => vt.optNames.map (fun k => (vt.name, k)))

/-- What the lookup of one option (`fv`) and the listing of all (`av`) do with a table of options. -/
def Sem (rows : List (Str × Str)) (fv : Str → Str → Option (Res Str)) (av : Map Str → Res (Map Str)) : Prop :=
  (∀ p k, (p, k) ∉ rows → fv p k = none) ∧
  ∀ m, ∃ m', av m = .ok m' ∧ (∀ k, k ∉ rows.map (·.2) → m'.get k = m.get k) ∧
    ∀ p k, (p, k) ∈ rows → ∃ v, fv p k = some (.ok v) ∧ m'.get k = some v

theorem Sem.nil : Sem [] (fun _ _ => none) (fun m => .ok m) :=
  ⟨fun _ _ _ => rfl, fun m => ⟨m, rfl, fun _ _ => rfl, fun _ _ h => by cases h⟩⟩

theorem Sem.append {r1 r2 : List (Str × Str)} {f1 f2 : Str → Str → Option (Res Str)} {a1 a2 : Map Str → Res (Map Str)}
    (h1 : Sem r1 f1 a1) (h2 : Sem r2 f2 a2) (hd : ∀ k, k ∈ r1.map (·.2) → k ∉ r2.map (·.2)) :
    Sem (r1 ++ r2) (fun p k => (f1 p k).or (f2 p k)) (fun m => a1 m >>= a2) := by
  constructor
  · intro p k h
    rw [List.mem_append, not_or] at h
    show (f1 p k).or (f2 p k) = none
    rw [h1.1 p k h.1, h2.1 p k h.2]; rfl
  · intro m
    obtain ⟨m1, e1, k1, v1⟩ := h1.2 m
    obtain ⟨m2, e2, k2, v2⟩ := h2.2 m1
    refine ⟨m2, ?_, ?_, ?_⟩
    · show a1 m >>= a2 = _
      rw [e1]; exact e2
    · intro k hk
      rw [List.map_append, List.mem_append, not_or] at hk
      rw [k2 k hk.2, k1 k hk.1]
    · intro p k hk
      show ∃ v, (f1 p k).or (f2 p k) = some (.ok v) ∧ _
      by_cases hk1 : (p, k) ∈ r1
      · obtain ⟨v, e, hv⟩ := v1 p k hk1
        refine ⟨v, by rw [e]; rfl, ?_⟩
        rw [k2 k (hd k (List.mem_map.2 ⟨_, hk1, rfl⟩)), hv]
      · obtain ⟨v, e, hv⟩ := v2 p k ((List.mem_append.1 hk).resolve_left hk1)
        exact ⟨v, by rw [h1.1 p k hk1, e]; rfl, hv⟩

theorem optValues_ok {T : Type} (render : T → Str) (o : Map T) (names : List Str) (hn : ∀ k ∈ names, (o.get k).isSome = true) :
    ∀ m : Map Str, ∃ m', names.foldlM (fun m opt => do
        let v ← getOpt o opt
        Res.ok (m.set opt (render v))) m = .ok m' ∧
      ∀ k, m'.get k = if k ∈ names then (o.get k).map render else m.get k := by
  induction names with
  | nil => intro m; exact ⟨m, rfl, by simp⟩
  | cons n names ih =>
    intro m
    obtain ⟨v, hv⟩ := Option.isSome_iff_exists.1 (hn n (by simp))
    obtain ⟨m', e, hm⟩ := ih (fun k hk => hn k (by simp [hk])) (m.set n (render v))
    refine ⟨m', ?_, ?_⟩
    · rw [List.foldlM_cons]
      simp only [getOpt, hv, Res.ok_bind]
      simpa only [getOpt] using e
    · intro k
      rw [hm k]
      by_cases h1 : k ∈ names
      · simp [h1]
      · rw [if_neg h1, Map.get_set]
        by_cases h2 : k = n
        · subst h2; simp [hv]
        · simp [h1, h2]

theorem mem_rows_one {T : Type} {vt : VTable S T} {p k : Str} :
    (p, k) ∈ vt.optNames.map (fun k => (vt.name, k)) ↔ p = vt.name ∧ k ∈ vt.optNames := by
  simp only [List.mem_map, Prod.mk.injEq]
  constructor
  · rintro ⟨k', h, rfl, rfl⟩; exact ⟨rfl, h⟩
  · rintro ⟨rfl, h⟩; exact ⟨k, h, rfl, rfl⟩

theorem sem_list {T : Type} (render : T → Str) : ∀ {vts : List (VTable S T)} {ps : List (PropObj S T)}, ShapeL vts ps →
    ((rowsOf vts).map (·.2)).Nodup →
    Sem (rowsOf vts) (fun p k => findValue render p k ps) (allValues render ps)
  | vts, [], h, _ => by
    have : vts = [] := h.1.symm
    subst this
    exact Sem.nil
  | vts, p :: ps, h, hn => by
    have hv : vts = p.vt :: ps.map (·.vt) := h.1.symm
    subst hv
    have hps : ShapeL (ps.map (·.vt)) ps := ⟨rfl, fun q hq => h.2 q (by simp [hq])⟩
    have hp : Complete p.vt p.opts := h.2 p (by simp)
    have hr : rowsOf (p.vt :: ps.map (·.vt)) = p.vt.optNames.map (fun k => (p.vt.name, k)) ++ rowsOf (ps.map (·.vt)) := rfl
    rw [hr] at hn ⊢
    rw [List.map_append] at hn
    obtain ⟨hn1, hn2, hn3⟩ := List.nodup_append.1 hn
    have ih := sem_list render hps hn2
    have one : Sem (p.vt.optNames.map (fun k => (p.vt.name, k)))
        (fun q k => if q = p.vt.name ∧ k ∈ p.vt.optNames then some (do let v ← getOpt p.opts k; .ok (render v)) else none)
        (fun m => optValues render m p) := by
      constructor
      · intro q k hk
        rw [mem_rows_one] at hk
        simp [hk]
      · intro m
        obtain ⟨m', e, hm⟩ := optValues_ok render p.opts p.vt.optNames (fun k hk => (hp k).2 hk) m
        refine ⟨m', e, ?_, ?_⟩
        · intro k hk
          rw [hm, if_neg]
          intro hk'; exact hk (by simpa using hk')
        · intro q k hk
          rw [mem_rows_one] at hk
          obtain ⟨v, hv⟩ := hp.get hk.2
          refine ⟨render v, ?_, ?_⟩
          · simp only [hk, and_self, if_true, getOpt, hv, Res.ok_bind]
          · rw [hm, if_pos hk.2, hv]; rfl
    have := Sem.append one ih (fun k h1 h2 => hn3 k h1 k h2 rfl)
    have ef : (fun q k => findValue render q k (p :: ps)) = fun q k =>
        (if q = p.vt.name ∧ k ∈ p.vt.optNames then some (do let v ← getOpt p.opts k; Res.ok (render v)) else none).or
          (findValue render q k ps) := by
      funext q k
      rw [findValue]
      split <;> rfl
    have ea : allValues render (p :: ps) = fun m => optValues render m p >>= allValues render ps := by
      funext m; rfl
    rw [ef, ea]
    exact this

/-! ### Writing the options -/

theorem setAll_other {T : Type} {vts : List (VTable S T)} {ps : List (PropObj S T)} (h : ShapeL vts ps) {p k : Str} {v : T}
    (hp : ∀ vt ∈ vts, p ≠ vt.name) : setAll p k v ps = .ok (ps, false) := by
  have hq : ∀ q ∈ ps, p ≠ q.vt.name := fun q hq => hp _ (by rw [← h.1]; exact List.mem_map_of_mem hq)
  clear h hp
  have : ps.mapM (fun q => if p = q.vt.name then do
      let o ← setOpt q.opts k v
      Res.ok { q with opts := o }
    else Res.ok q) = .ok ps := by
    induction ps with
    | nil => rfl
    | cons q ps ih =>
      rw [List.mapM_cons, if_neg (hq q (by simp)), Res.ok_bind, ih (fun q' h => hq q' (by simp [h]))]; rfl
  unfold setAll
  rw [this, Res.ok_bind]
  have : ps.any (fun q => p == q.vt.name) = false := by
    rw [List.any_eq_false]; intro q h; simpa using hq q h
  rw [this]

theorem setAll_row {T : Type} (render : T → Str) {vts : List (VTable S T)} {ps : List (PropObj S T)} (h : ShapeL vts ps)
    (hn : (vts.map (·.name)).Nodup) {p k : Str} (v : T) (hp : (p, k) ∈ rowsOf vts) :
    ∃ qs, setAll p k v ps = .ok (qs, true) ∧ findValue render p k qs = some (.ok (render v)) ∧
      ∀ p' k', (p', k') ≠ (p, k) → findValue render p' k' qs = findValue render p' k' ps := by
  induction ps generalizing vts with
  | nil =>
    have : vts = [] := h.1.symm
    subst this; cases hp
  | cons q ps ih =>
    have hv : vts = q.vt :: ps.map (·.vt) := h.1.symm
    subst hv
    have hps : ShapeL (ps.map (·.vt)) ps := ⟨rfl, fun r hr => h.2 r (by simp [hr])⟩
    have hq : Complete q.vt q.opts := h.2 q (by simp)
    rw [List.map_cons, List.nodup_cons] at hn
    have hr : rowsOf (q.vt :: ps.map (·.vt)) = q.vt.optNames.map (fun k => (q.vt.name, k)) ++ rowsOf (ps.map (·.vt)) := rfl
    rw [hr, List.mem_append] at hp
    by_cases hname : p = q.vt.name
    · have hk : k ∈ q.vt.optNames := by
        rcases hp with hp | hp
        · exact (mem_rows_one.1 hp).2
        · exfalso
          obtain ⟨vt, hvt, hm⟩ := List.mem_flatMap.1 hp
          rw [mem_rows_one] at hm
          exact hn.1 (List.mem_map.2 ⟨vt, hvt, by rw [← hm.1, hname]⟩)
      obtain ⟨x, hx⟩ := hq.get hk
      have ho := setAll_other hps (p := p) (k := k) (v := v) (fun vt hvt e => hn.1 (by
        rw [← hname]; exact List.mem_map.2 ⟨vt, hvt, e.symm⟩))
      have hmap : ps.mapM (fun q => if p = q.vt.name then do
          let o ← setOpt q.opts k v
          Res.ok { q with opts := o }
        else Res.ok q) = .ok ps := by
        unfold setAll at ho
        obtain ⟨qs, e1, e2⟩ := Res.bind_eq_ok.1 ho
        injection e2 with e2
        injection e2 with e2
        exact e2 ▸ e1
      refine ⟨{ q with opts := q.opts.set k v } :: ps, ?_, ?_, ?_⟩
      · unfold setAll
        rw [List.mapM_cons, if_pos hname]
        simp only [setOpt, hx, Res.ok_bind] at hmap ⊢
        rw [hmap]
        simp [hname]
      · rw [findValue, if_pos ⟨hname, hk⟩]
        simp [getOpt]
      · intro p' k' hne
        rw [findValue, findValue]
        by_cases hpk : p' = q.vt.name ∧ k' ∈ q.vt.optNames
        · rw [if_pos hpk, if_pos hpk]
          have : k' ≠ k := by rintro rfl; exact hne (by rw [hpk.1, hname])
          simp [getOpt, Map.get_set_ne _ this]
        · rw [if_neg hpk, if_neg hpk]
    · have hp' : (p, k) ∈ rowsOf (ps.map (·.vt)) := hp.resolve_left (fun h => hname (mem_rows_one.1 h).1)
      obtain ⟨qs, e, h1, h2⟩ := ih hps hn.2 hp'
      have hmap : ps.mapM (fun q => if p = q.vt.name then do
          let o ← setOpt q.opts k v
          Res.ok { q with opts := o }
        else Res.ok q) = .ok qs ∧ ps.any (fun q => p == q.vt.name) = true := by
        unfold setAll at e
        obtain ⟨qs', e1, e2⟩ := Res.bind_eq_ok.1 e
        injection e2 with e2
        injection e2 with e2 e3
        exact ⟨e2 ▸ e1, e3⟩
      refine ⟨q :: qs, ?_, ?_, ?_⟩
      · unfold setAll
        rw [List.mapM_cons, if_neg hname, Res.ok_bind, hmap.1]
        simp [hmap.2]
      · rw [findValue, if_neg (fun h => hname h.1), h1]
      · intro p' k' hne
        rw [findValue, findValue, h2 p' k' hne]

theorem setAll_throw {T : Type} {vts : List (VTable S T)} {ps : List (PropObj S T)} (h : ShapeL vts ps) {p k : Str} (v : T)
    (hp : ∃ vt ∈ vts, p = vt.name) (hk : (p, k) ∉ rowsOf vts) : setAll p k v ps = .throw .invalidArgument := by
  unfold setAll
  have : ps.mapM (fun q => if p = q.vt.name then do
      let o ← setOpt q.opts k v
      Res.ok { q with opts := o }
    else Res.ok q) = .throw .invalidArgument := by
    induction ps generalizing vts with
    | nil =>
      have : vts = [] := h.1.symm
      subst this; obtain ⟨_, h, _⟩ := hp; cases h
    | cons q ps ih =>
      have hv : vts = q.vt :: ps.map (·.vt) := h.1.symm
      subst hv
      have hps : ShapeL (ps.map (·.vt)) ps := ⟨rfl, fun r hr => h.2 r (by simp [hr])⟩
      have hq : Complete q.vt q.opts := h.2 q (by simp)
      have hr : rowsOf (q.vt :: ps.map (·.vt)) = q.vt.optNames.map (fun k => (q.vt.name, k)) ++ rowsOf (ps.map (·.vt)) := rfl
      rw [hr, List.mem_append, not_or, mem_rows_one] at hk
      rw [List.mapM_cons]
      by_cases hname : p = q.vt.name
      · rw [if_pos hname]
        have : q.opts.get k = none := by
          rw [← Option.not_isSome_iff_eq_none, hq k]
          exact fun h => hk.1 ⟨hname, h⟩
        simp [setOpt, this]
      · rw [if_neg hname, Res.ok_bind]
        obtain ⟨vt, hvt, e⟩ := hp
        have : vt ∈ ps.map (·.vt) := by
          rcases List.mem_cons.1 hvt with rfl | h
          · exact absurd e hname
          · exact h
        rw [ih hps ⟨vt, this, e⟩ hk.2]; rfl
  rw [this]; rfl

/-! ### The five kinds -/

/-- Rows of a table with the type of the value. -/
def typed (t : OptType) (rows : List (Str × Str)) : List (Str × Str × OptType) := rows.map (fun r => (r.1, r.2, t))

/-- All rows of an argument. -/
def ArgObj.rows (a : ArgObj S D) : List (Str × Str) :=
  rowsOf (a.ints.map (·.vt)) ++ (rowsOf (a.doubles.map (·.vt)) ++ (rowsOf (a.sizes.map (·.vt)) ++
    (rowsOf (a.strs.map (·.vt)) ++ (rowsOf (a.sets.map (·.vt)) ++ rowsOf (a.vecs.map (·.vt))))))

/-- All property names of an argument. -/
def ArgObj.names (a : ArgObj S D) : List Str :=
  a.ints.map (·.vt.name) ++ (a.doubles.map (·.vt.name) ++ (a.sizes.map (·.vt.name) ++
    (a.strs.map (·.vt.name) ++ (a.sets.map (·.vt.name) ++ a.vecs.map (·.vt.name)))))

/-- What is needed of an argument as constructed. -/
structure Tabulated (a : ArgObj S D) (table : List (Str × Str × OptType)) : Prop where
  shape : Shape a a
  keep : AllKeep a
  table_eq : table = typed .int (rowsOf (a.ints.map (·.vt))) ++ (typed .double (rowsOf (a.doubles.map (·.vt))) ++
    (typed .size (rowsOf (a.sizes.map (·.vt))) ++ (typed .str (rowsOf (a.strs.map (·.vt))) ++
      (typed .set (rowsOf (a.sets.map (·.vt))) ++ typed .vec (rowsOf (a.vecs.map (·.vt)))))))
  options : (a.rows.map (·.2)).Nodup
  props : a.names.Nodup
  nonempty : table ≠ []

theorem complete_of {T : Type} {vt : VTable S T} {o : Map T} (h : o.map (·.1) ⊆ vt.optNames)
    (h' : ∀ k ∈ vt.optNames, (o.get k).isSome = true) : Complete vt o := by
  intro k
  refine ⟨fun hk => ?_, h' k⟩
  obtain ⟨v, hv⟩ := Option.isSome_iff_exists.1 hk
  exact h (List.mem_map.2 ⟨_, Map.get_mem hv, rfl⟩)

theorem shapeL_one {T : Type} {p : PropObj S T} (h : Complete p.vt p.opts) : ShapeL [p.vt] [p] :=
  ⟨rfl, by simpa using h⟩

end

theorem complete_int : Complete intVT newPropertyInt.opts := complete_of (by decide) (by decide)
theorem complete_double {D : Type} [Dbl D] : Complete (doubleVT (D := D)) newPropertyDouble.opts := by
  refine complete_of ?_ ?_
  · show [(lit "MAX"), (lit "MIN")] ⊆ [(lit "MIN"), (lit "MAX")]
    decide
  · intro k hk
    rcases List.mem_cons.1 hk with rfl | hk
    · rfl
    · rcases List.mem_cons.1 hk with rfl | hk
      · rfl
      · cases hk
theorem complete_string : Complete stringVT newPropertyString.opts := complete_of (by decide) (by decide)
theorem complete_choice : Complete choiceVT newPropertyStringChoice.opts := complete_of (by decide) (by decide)
theorem complete_switch : Complete switchVT newPropertySwitch.opts := complete_of (by decide) (by decide)
theorem complete_fileExt : Complete fileExtVT newPropertyFileExt.opts := complete_of (by decide) (by decide)
theorem complete_fileExist : Complete fileExistVT newPropertyFileExist.opts := complete_of (by decide) (by decide)
theorem complete_sister : Complete sisterVT newPropertySisterFile.opts := complete_of (by decide) (by decide)

theorem all_nil {T S : Type} : ∀ vt ∈ ([] : List (VTable S T)), Keeps vt := by intro vt h; cases h
theorem all_one {T S : Type} {vt : VTable S T} (h : Keeps vt) : ∀ vt' ∈ [vt], Keeps vt' := by
  intro vt' h'; rw [List.mem_singleton.1 h']; exact h

theorem NewArg.tabulated {D : Type} [Dbl D] {S : Type} {a : ArgObj S D} {table : List (Str × Str × OptType)}
    (h : NewArg a table) : Tabulated a table := by
  cases h with
  | int =>
    exact ⟨⟨rfl, shapeL_one complete_int, shapeL_nil, shapeL_nil, shapeL_nil, shapeL_nil, shapeL_nil⟩,
      ⟨all_one keeps_int, all_nil, all_nil, all_nil, all_nil, all_nil⟩, rfl,
      (by show [(lit "MIN"), (lit "MAX")].Nodup; decide), (by show [(lit "PROPERTY_INT")].Nodup; decide), by simp⟩
  | double =>
    exact ⟨⟨rfl, shapeL_nil, shapeL_one complete_double, shapeL_nil, shapeL_nil, shapeL_nil, shapeL_nil⟩,
      ⟨all_nil, all_one keeps_double, all_nil, all_nil, all_nil, all_nil⟩, rfl,
      (by show [(lit "MIN"), (lit "MAX")].Nodup; decide), (by show [(lit "PROPERTY_DOUBLE")].Nodup; decide), by simp⟩
  | string =>
    exact ⟨⟨rfl, shapeL_nil, shapeL_nil, shapeL_one complete_string, shapeL_nil, shapeL_one complete_choice, shapeL_nil⟩,
      ⟨all_nil, all_nil, all_one keeps_string, all_nil, all_one keeps_choice, all_nil⟩, rfl,
      (by show [(lit "MIN_LENGTH"), (lit "MAX_LENGTH"), (lit "STRING_CHOICE_ENFORCED"), (lit "STRING_CHOICES")].Nodup; decide),
      (by show [(lit "PROPERTY_STRING"), (lit "PROPERTY_STRING_CHOICE")].Nodup; decide), by simp⟩
  | switch =>
    exact ⟨⟨rfl, shapeL_nil, shapeL_nil, shapeL_nil, shapeL_one complete_switch, shapeL_nil, shapeL_nil⟩,
      ⟨all_nil, all_nil, all_nil, all_one keeps_switch, all_nil, all_nil⟩, rfl,
      (by show [(lit "DEFAULT")].Nodup; decide), (by show [(lit "PROPERTY_SWITCH")].Nodup; decide), by simp⟩
  | file =>
    exact ⟨⟨rfl, shapeL_one complete_fileExist, shapeL_nil, shapeL_nil, shapeL_nil, shapeL_one complete_fileExt,
        shapeL_one complete_sister⟩,
      ⟨all_one keeps_fileExist, all_nil, all_nil, all_nil, all_one keeps_fileExt, all_one keeps_sister⟩, rfl,
      (by show [(lit "FILE_MUST_EXIST"), (lit "FILE_DOES_EXIST"), (lit "ALLOWED_FILE_EXT"), (lit "ALLOWED_SISTER_FILE_EXT"),
            (lit "SISTER_FILE_NAME"), (lit "SISTER_FILE_PATH"), (lit "SISTER_FILE_PATH_NAME"), (lit "SISTER_FILE_EXISTS")].Nodup
          decide),
      (by show [(lit "PROPERTY_FILE_EXIST"), (lit "PROPERTY_FILE_EXT"), (lit "PROPERTY_SISTER_FILE")].Nodup; decide), by simp⟩

section
variable {S D : Type}

theorem nodup_app {A : Type} {l1 l2 : List A} (h : (l1 ++ l2).Nodup) : l2.Nodup ∧ ∀ x ∈ l1, x ∉ l2 := by
  obtain ⟨-, h2, h3⟩ := List.nodup_append.1 h
  exact ⟨h2, fun x h h' => h3 x h x h' rfl⟩

theorem sem_arg [Dbl D] {a₀ a : ArgObj S D} (h : Shape a₀ a) (hn : (a₀.rows.map (·.2)).Nodup) :
    Sem a₀.rows (fun p k => (findValue intToStr p k a.ints).or ((findValue Dbl.toStr p k a.doubles).or
        ((findValue (fun n : Nat => intToStr n) p k a.sizes).or ((findValue id p k a.strs).or
          ((findValue joinTrim p k a.sets).or (findValue joinTrim p k a.vecs))))))
      (fun m => allValues intToStr a.ints m >>= fun m => allValues Dbl.toStr a.doubles m >>= fun m =>
        allValues (fun n : Nat => intToStr n) a.sizes m >>= fun m => allValues id a.strs m >>= fun m =>
        allValues joinTrim a.sets m >>= fun m => allValues joinTrim a.vecs m) := by
  unfold ArgObj.rows at hn ⊢
  simp only [List.map_append] at hn
  have n1 := (List.nodup_append.1 hn).1
  obtain ⟨m1, d1⟩ := nodup_app hn
  have n2 := (List.nodup_append.1 m1).1
  obtain ⟨m2, d2⟩ := nodup_app m1
  have n3 := (List.nodup_append.1 m2).1
  obtain ⟨m3, d3⟩ := nodup_app m2
  have n4 := (List.nodup_append.1 m3).1
  obtain ⟨m4, d4⟩ := nodup_app m3
  have n5 := (List.nodup_append.1 m4).1
  obtain ⟨n6, d5⟩ := nodup_app m4
  refine Sem.append (sem_list _ h.ints n1) (Sem.append (sem_list _ h.doubles n2) (Sem.append (sem_list _ h.sizes n3)
    (Sem.append (sem_list _ h.strs n4) (Sem.append (sem_list _ h.sets n5) (sem_list _ h.vecs n6) d5) ?_) ?_) ?_) ?_
  · simpa only [List.map_append] using d4
  · simpa only [List.map_append] using d3
  · simpa only [List.map_append] using d2
  · simpa only [List.map_append] using d1

theorem propertyValue_eq [Dbl D] (a : ArgObj S D) (p k : Str) :
    a.propertyValue p k = ((findValue intToStr p k a.ints).or ((findValue Dbl.toStr p k a.doubles).or
        ((findValue (fun n : Nat => intToStr n) p k a.sizes).or ((findValue id p k a.strs).or
          ((findValue joinTrim p k a.sets).or (findValue joinTrim p k a.vecs)))))).getD (.throw .invalidArgument) := by
  unfold ArgObj.propertyValue
  simp only [Option.or_assoc]

theorem typed_untyped (t : OptType) (rows : List (Str × Str)) : (typed t rows).map (fun r => (r.1, r.2.1)) = rows := by
  unfold typed; simp [Function.comp_def]

theorem Tabulated.rows_eq {a : ArgObj S D} {table : List (Str × Str × OptType)} (h : Tabulated a table) :
    table.map (fun r => (r.1, r.2.1)) = a.rows := by
  rw [h.table_eq]
  simp only [List.map_append, typed_untyped]
  rfl

theorem Tabulated.mem {a : ArgObj S D} {table : List (Str × Str × OptType)} (h : Tabulated a table) {p k : Str} :
    (∃ t, (p, k, t) ∈ table) ↔ (p, k) ∈ a.rows := by
  rw [← h.rows_eq, List.mem_map]
  constructor
  · rintro ⟨t, ht⟩; exact ⟨_, ht, rfl⟩
  · rintro ⟨⟨p', k', t⟩, ht, e⟩
    cases e; exact ⟨t, ht⟩

theorem rowsOf_opts {T : Type} {vts : List (VTable S T)} {ps : List (PropObj S T)} (h : ShapeL vts ps) :
    ps.flatMap (·.vt.optNames) = (rowsOf vts).map (·.2) := by
  rw [← h.1]
  unfold rowsOf
  simp [List.map_flatMap, List.flatMap_map, Function.comp_def]

theorem rowsOf_names {T : Type} {vts : List (VTable S T)} {ps : List (PropObj S T)} (h : ShapeL vts ps) :
    ps.map (·.vt.name) = vts.map (·.name) := by
  rw [← h.1]; simp [Function.comp_def]

/-- C89: for an argument of any of the five kinds, after any history of successful calls of its interface:
`getPropertyOptions()` lists the options of its kind; `getPropertyValues()` succeeds and has a value for exactly these; looking up
a single option of its kind succeeds and gives the same value; and looking up anything else throws `invalid_argument`. -/
theorem C89_options [Dbl D] {a₀ a : ArgObj S D} {table : List (Str × Str × OptType)} (h0 : NewArg a₀ table)
    (h : Reached a₀ a) :
    a.propertyOptions = table.map (·.2.1) ∧
    (∃ m, a.propertyValues = .ok m ∧ (∀ k, (m.get k).isSome = true ↔ k ∈ table.map (·.2.1)) ∧
      ∀ p k t, (p, k, t) ∈ table → ∃ v, a.propertyValue p k = .ok v ∧ m.get k = some v) ∧
    ∀ p k, (∀ t, (p, k, t) ∉ table) → a.propertyValue p k = .throw .invalidArgument := by
  have ht := h0.tabulated
  have hs := ht.shape.reached ht.keep h
  have sem := sem_arg hs ht.options
  have hopt : a₀.rows.map (·.2) = table.map (·.2.1) := by rw [← ht.rows_eq]; simp
  refine ⟨?_, ?_, ?_⟩
  · unfold ArgObj.propertyOptions
    have : a.ints.flatMap (·.vt.optNames) ++ a.doubles.flatMap (·.vt.optNames) ++ a.sizes.flatMap (·.vt.optNames) ++
        a.strs.flatMap (·.vt.optNames) ++ a.sets.flatMap (·.vt.optNames) ++ a.vecs.flatMap (·.vt.optNames) =
        table.map (·.2.1) := by
      rw [rowsOf_opts hs.ints, rowsOf_opts hs.doubles, rowsOf_opts hs.sizes, rowsOf_opts hs.strs, rowsOf_opts hs.sets,
        rowsOf_opts hs.vecs, ← hopt]
      unfold ArgObj.rows
      simp only [List.map_append, List.append_assoc]
    simp only [this]
    rw [if_neg]
    rw [List.length_map]
    exact fun h => ht.nonempty (List.length_eq_zero_iff.1 h)
  · obtain ⟨m, e, h1, h2⟩ := sem.2 []
    refine ⟨m, e, ?_, ?_⟩
    · intro k
      rw [← hopt]
      constructor
      · intro hk
        by_contra hc
        rw [h1 k hc] at hk; cases hk
      · intro hk
        obtain ⟨⟨p, k'⟩, hm, rfl⟩ := List.mem_map.1 hk
        obtain ⟨v, -, hv⟩ := h2 p k' hm
        rw [hv]; rfl
    · intro p k t hm
      obtain ⟨v, e, hv⟩ := h2 p k (ht.mem.1 ⟨t, hm⟩)
      refine ⟨v, ?_, hv⟩
      rw [propertyValue_eq]; exact congrArg (fun x => Option.getD x _) e
  · intro p k hk
    rw [propertyValue_eq]; exact congrArg (fun x => Option.getD x _) (sem.1 p k (fun h => (ht.mem.2 h).elim hk))

/-- C89 (properties): `getProperties` lists the properties of its kind, each once; the name of an argument never changes. -/
theorem C89_properties [Dbl D] {a₀ a : ArgObj S D} {table : List (Str × Str × OptType)} (h0 : NewArg a₀ table)
    (h : Reached a₀ a) : (∀ p, p ∈ a.properties ↔ ∃ k t, (p, k, t) ∈ table) ∧ a.properties.Nodup ∧ a.name = a₀.name := by
  have ht := h0.tabulated
  have hs := ht.shape.reached ht.keep h
  have key : a.properties = a₀.properties := by
    unfold ArgObj.properties
    rw [rowsOf_names hs.ints, rowsOf_names hs.doubles, rowsOf_names hs.sizes, rowsOf_names hs.strs, rowsOf_names hs.sets,
        rowsOf_names hs.vecs]
    simp only [List.map_map, Function.comp_def]
  rw [key]
  refine ⟨fun p => ?_, ?_, hs.name⟩
  · cases h0 <;> simp [ArgObj.properties, newArgumentInt, newArgumentDouble, newArgumentString, newArgumentSwitch,
      newArgumentFile, newPropertyInt, newPropertyDouble, newPropertyString, newPropertyStringChoice, newPropertySwitch,
      newPropertyFileExist, newPropertyFileExt, newPropertySisterFile, intVT, doubleVT, stringVT, choiceVT, switchVT, fileExistVT,
      fileExtVT, sisterVT, exists_or]
  · unfold ArgObj.properties
    dsimp only
    split
    · decide
    · have := ht.props
      unfold ArgObj.names at this
      simpa only [List.append_assoc] using this


/-! ### C90 -/

theorem mem_typed {t t' : OptType} {rows : List (Str × Str)} {p k : Str} :
    (p, k, t') ∈ typed t rows ↔ (p, k) ∈ rows ∧ t' = t := by
  unfold typed
  simp only [List.mem_map, Prod.mk.injEq]
  constructor
  · rintro ⟨⟨p', k'⟩, h, rfl, rfl, rfl⟩; exact ⟨h, rfl⟩
  · rintro ⟨h, rfl⟩; exact ⟨(p, k), h, rfl, rfl, rfl⟩

/-- The rows of one type. -/
def ArgObj.rowsOfType (a : ArgObj S D) : OptType → List (Str × Str)
  | .int => rowsOf (a.ints.map (·.vt))
  | .double => rowsOf (a.doubles.map (·.vt))
  | .size => rowsOf (a.sizes.map (·.vt))
  | .str => rowsOf (a.strs.map (·.vt))
  | .set => rowsOf (a.sets.map (·.vt))
  | .vec => rowsOf (a.vecs.map (·.vt))

theorem Tabulated.mem_iff {a : ArgObj S D} {table : List (Str × Str × OptType)} (h : Tabulated a table) {p k : Str}
    {t : OptType} : (p, k, t) ∈ table ↔ (p, k) ∈ a.rowsOfType t := by
  rw [h.table_eq]
  simp only [List.mem_append, mem_typed]
  cases t <;> simp [ArgObj.rowsOfType]

theorem name_of_row {T : Type} {vts : List (VTable S T)} {p k : Str} (h : (p, k) ∈ rowsOf vts) : p ∈ vts.map (·.name) := by
  obtain ⟨vt, hvt, hm⟩ := List.mem_flatMap.1 h
  rw [mem_rows_one] at hm
  exact List.mem_map.2 ⟨vt, hvt, hm.1.symm⟩

theorem findValue_none {T : Type} (render : T → Str) {vts : List (VTable S T)} {ps : List (PropObj S T)} (h : ShapeL vts ps)
    {p : Str} (k : Str) (hp : p ∉ vts.map (·.name)) : findValue render p k ps = none := by
  have hq : ∀ q ∈ ps, p ≠ q.vt.name := fun q hq e => hp (by
    rw [← h.1, e, List.map_map]; exact List.mem_map.2 ⟨q, hq, rfl⟩)
  clear h hp
  induction ps with
  | nil => rfl
  | cons q ps ih => rw [findValue, if_neg (fun h => hq q (by simp) h.1)]; exact ih (fun r hr => hq r (by simp [hr]))

/-- A write to one of the six lists. -/
theorem setAll_cases {T : Type} (render : T → Str) {vts : List (VTable S T)} {ps : List (PropObj S T)} (h : ShapeL vts ps)
    (hn : (vts.map (·.name)).Nodup) (p k : Str) (v : T) :
    (∃ qs, (p, k) ∈ rowsOf vts ∧ p ∈ vts.map (·.name) ∧ setAll p k v ps = .ok (qs, true) ∧
      findValue render p k qs = some (.ok (render v)) ∧
      ∀ p' k', (p', k') ≠ (p, k) → findValue render p' k' qs = findValue render p' k' ps) ∨
    ((p, k) ∉ rowsOf vts ∧ p ∈ vts.map (·.name) ∧ setAll p k v ps = .throw .invalidArgument) ∨
    ((p, k) ∉ rowsOf vts ∧ p ∉ vts.map (·.name) ∧ setAll p k v ps = .ok (ps, false)) := by
  by_cases hr : (p, k) ∈ rowsOf vts
  · obtain ⟨qs, h1, h2, h3⟩ := setAll_row render h hn v hr
    exact .inl ⟨qs, hr, name_of_row hr, h1, h2, h3⟩
  · by_cases hp : p ∈ vts.map (·.name)
    · obtain ⟨vt, hvt, e⟩ := List.mem_map.1 hp
      exact .inr (.inl ⟨hr, hp, setAll_throw h v ⟨vt, hvt, e.symm⟩ hr⟩)
    · refine .inr (.inr ⟨hr, hp, setAll_other h (fun vt hvt e => hp (List.mem_map.2 ⟨vt, hvt, e.symm⟩))⟩)

/-- Names of different lists are different, names of one list too. -/
structure Apart (a : ArgObj S D) : Prop where
  ints : ((a.ints.map (·.vt)).map (·.name)).Nodup
  doubles : ((a.doubles.map (·.vt)).map (·.name)).Nodup
  strs : ((a.strs.map (·.vt)).map (·.name)).Nodup
  sets : ((a.sets.map (·.vt)).map (·.name)).Nodup
  vecs : ((a.vecs.map (·.vt)).map (·.name)).Nodup
  double_int : ∀ p ∈ (a.doubles.map (·.vt)).map (·.name), p ∉ (a.ints.map (·.vt)).map (·.name)
  str_rest : ∀ p ∈ (a.strs.map (·.vt)).map (·.name), p ∉ (a.ints.map (·.vt)).map (·.name) ∧
    p ∉ (a.doubles.map (·.vt)).map (·.name) ∧ p ∉ (a.sizes.map (·.vt)).map (·.name) ∧
    p ∉ (a.sets.map (·.vt)).map (·.name) ∧ p ∉ (a.vecs.map (·.vt)).map (·.name)
  set_rest : ∀ p ∈ (a.sets.map (·.vt)).map (·.name), p ∉ (a.ints.map (·.vt)).map (·.name) ∧
    p ∉ (a.doubles.map (·.vt)).map (·.name) ∧ p ∉ (a.sizes.map (·.vt)).map (·.name) ∧
    p ∉ (a.strs.map (·.vt)).map (·.name) ∧ p ∉ (a.vecs.map (·.vt)).map (·.name)
  vec_rest : ∀ p ∈ (a.vecs.map (·.vt)).map (·.name), p ∉ (a.ints.map (·.vt)).map (·.name) ∧
    p ∉ (a.doubles.map (·.vt)).map (·.name) ∧ p ∉ (a.sizes.map (·.vt)).map (·.name) ∧
    p ∉ (a.strs.map (·.vt)).map (·.name) ∧ p ∉ (a.sets.map (·.vt)).map (·.name)

theorem Tabulated.apart {a : ArgObj S D} {table : List (Str × Str × OptType)} (h : Tabulated a table) : Apart a := by
  have hn := h.props
  unfold ArgObj.names at hn
  have n1 := (List.nodup_append.1 hn).1
  obtain ⟨m1, d1⟩ := nodup_app hn
  have n2 := (List.nodup_append.1 m1).1
  obtain ⟨m2, d2⟩ := nodup_app m1
  have n3 := (List.nodup_append.1 m2).1
  obtain ⟨m3, d3⟩ := nodup_app m2
  have n4 := (List.nodup_append.1 m3).1
  obtain ⟨m4, d4⟩ := nodup_app m3
  have n5 := (List.nodup_append.1 m4).1
  obtain ⟨n6, d5⟩ := nodup_app m4
  simp only [List.mem_append, not_or] at d1 d2 d3 d4 d5
  constructor <;> simp only [List.map_map, Function.comp_def]
  · exact n1
  · exact n2
  · exact n4
  · exact n5
  · exact n6
  · exact fun p hp hi => (d1 p hi).1 hp
  · exact fun p hp => ⟨fun hi => (d1 p hi).2.2.1 hp, fun hi => (d2 p hi).2.1 hp, fun hi => (d3 p hi).1 hp, (d4 p hp).1, (d4 p hp).2⟩
  · exact fun p hp => ⟨fun hi => (d1 p hi).2.2.2.1 hp, fun hi => (d2 p hi).2.2.1 hp, fun hi => (d3 p hi).2.1 hp,
      fun hi => (d4 p hi).1 hp, d5 p hp⟩
  · exact fun p hp => ⟨fun hi => (d1 p hi).2.2.2.2 hp, fun hi => (d2 p hi).2.2.2 hp, fun hi => (d3 p hi).2.2 hp,
      fun hi => (d4 p hi).2 hp, fun hi => d5 p hi hp⟩

theorem joinTrim_shows (vals : List Str) : Shows vals (joinTrim vals) := by
  obtain ⟨l, r, e, h1, h2, h3⟩ := C45_trim (vals.flatMap (fun v => v ++ (lit " ")))
  refine ⟨l, r, e, h1, h2, ?_⟩
  show (∀ c ∈ (trimmed _).head?, _) ∧ _
  change _ ∧ ∀ c ∈ (trimmed _).getLast?, _
  rcases h3 with h3 | ⟨⟨c, t, h3, hc⟩, t', c', h4, hc'⟩
  · rw [h3]; simp
  · constructor
    · rw [h3]; intro x hx; cases hx; exact hc
    · rw [h4]; intro x hx; rw [List.getLast?_append_of_ne_nil _ (by simp)] at hx; cases hx; exact hc'

/-- The effect of a successful write of `option` of `property` that shows as `text`: it is read back, and every other value is
as before. -/
def Written [Dbl D] (a b : ArgObj S D) (property option : Str) (text : Str → Prop) : Prop :=
  (∃ t, text t ∧ b.propertyValue property option = .ok t) ∧
  ∀ p k, (p, k) ≠ (property, option) → b.propertyValue p k = a.propertyValue p k

/-- C90: an option is written through the overload of its type, and only through that; what was written is read back, and no other
option changes. Anything else is refused with `invalid_argument`. -/
theorem C90_write [Dbl D] {a₀ a : ArgObj S D} {table : List (Str × Str × OptType)} (h0 : NewArg a₀ table)
    (h : Reached a₀ a) (p k : Str) :
    (∀ v : Int, if (p, k, .int) ∈ table then ∃ b, a.setInt p k v = .ok b ∧ Written a b p k (· = intToStr v)
      else a.setInt p k v = .throw .invalidArgument) ∧
    (∀ v : D, if (p, k, .double) ∈ table then ∃ b, a.setDouble p k v = .ok b ∧ Written a b p k (· = Dbl.toStr v)
      else a.setDouble p k v = .throw .invalidArgument) ∧
    (∀ vs : List Str, if (p, k, .set) ∈ table then ∃ b, a.setSet p k vs = .ok b ∧ Written a b p k (Shows vs)
      else a.setSet p k vs = .throw .invalidArgument) ∧
    (∀ vs : List Str, if (p, k, .vec) ∈ table then ∃ b, a.setVec p k vs = .ok b ∧ Written a b p k (Shows vs)
      else a.setVec p k vs = .throw .invalidArgument) := by
  have ht := h0.tabulated
  have hs := ht.shape.reached ht.keep h
  have ap := ht.apart
  simp only [ht.mem_iff, ArgObj.rowsOfType]
  refine ⟨fun v => ?_, fun v => ?_, fun v => ?_, fun v => ?_⟩
  · rcases setAll_cases intToStr hs.ints ap.ints p k v with ⟨qs, hr, -, e, e1, e2⟩ | ⟨hr, -, e⟩ | ⟨hr, -, e⟩
    · rw [if_pos hr]
      refine ⟨{ a with ints := qs }, by unfold ArgObj.setInt; rw [e]; rfl, ⟨_, rfl, ?_⟩, fun p' k' hne => ?_⟩
      · rw [propertyValue_eq]; dsimp only; rw [e1]; rfl
      · rw [propertyValue_eq, propertyValue_eq]; dsimp only; rw [e2 _ _ hne]
    · rw [if_neg hr]; unfold ArgObj.setInt; rw [e]; rfl
    · rw [if_neg hr]; unfold ArgObj.setInt; rw [e]; rfl
  · rcases setAll_cases Dbl.toStr hs.doubles ap.doubles p k v with ⟨qs, hr, hp, e, e1, e2⟩ | ⟨hr, -, e⟩ | ⟨hr, -, e⟩
    · rw [if_pos hr]
      refine ⟨{ a with doubles := qs }, by unfold ArgObj.setDouble; rw [e]; rfl, ⟨_, rfl, ?_⟩, fun p' k' hne => ?_⟩
      · rw [propertyValue_eq]; dsimp only
        rw [findValue_none _ hs.ints k (ap.double_int p hp), e1]; rfl
      · rw [propertyValue_eq, propertyValue_eq]; dsimp only; rw [e2 _ _ hne]
    · rw [if_neg hr]; unfold ArgObj.setDouble; rw [e]; rfl
    · rw [if_neg hr]; unfold ArgObj.setDouble; rw [e]; rfl
  · rcases setAll_cases joinTrim hs.sets ap.sets p k v with ⟨qs, hr, hp, e, e1, e2⟩ | ⟨hr, -, e⟩ | ⟨hr, -, e⟩
    · rw [if_pos hr]
      refine ⟨{ a with sets := qs }, by unfold ArgObj.setSet; rw [e]; rfl, ⟨_, joinTrim_shows v, ?_⟩, fun p' k' hne => ?_⟩
      · obtain ⟨g1, g2, g3, g4, g5⟩ := ap.set_rest p hp
        rw [propertyValue_eq]; dsimp only
        rw [findValue_none _ hs.ints k g1, findValue_none _ hs.doubles k g2, findValue_none _ hs.sizes k g3,
          findValue_none _ hs.strs k g4, e1]; rfl
      · rw [propertyValue_eq, propertyValue_eq]; dsimp only; rw [e2 _ _ hne]
    · rw [if_neg hr]; unfold ArgObj.setSet; rw [e]; rfl
    · rw [if_neg hr]; unfold ArgObj.setSet; rw [e]; rfl
  · rcases setAll_cases joinTrim hs.vecs ap.vecs p k v with ⟨qs, hr, hp, e, e1, e2⟩ | ⟨hr, -, e⟩ | ⟨hr, -, e⟩
    · rw [if_pos hr]
      refine ⟨{ a with vecs := qs }, by unfold ArgObj.setVec; rw [e]; rfl, ⟨_, joinTrim_shows v, ?_⟩, fun p' k' hne => ?_⟩
      · obtain ⟨g1, g2, g3, g4, g5⟩ := ap.vec_rest p hp
        rw [propertyValue_eq]; dsimp only
        rw [findValue_none _ hs.ints k g1, findValue_none _ hs.doubles k g2, findValue_none _ hs.sizes k g3,
          findValue_none _ hs.strs k g4, findValue_none _ hs.sets k g5, e1]; rfl
      · rw [propertyValue_eq, propertyValue_eq]; dsimp only; rw [e2 _ _ hne]
    · rw [if_neg hr]; unfold ArgObj.setVec; rw [e]; rfl
    · rw [if_neg hr]; unfold ArgObj.setVec; rw [e]; rfl

/-- C90 (one text): the overload for one text writes options holding a text, and options holding several, which then hold just
this one. -/
theorem C90_write_text [Dbl D] {a₀ a : ArgObj S D} {table : List (Str × Str × OptType)} (h0 : NewArg a₀ table)
    (h : Reached a₀ a) (p k v : Str) :
    ((p, k, .str) ∈ table → ∃ b, a.setStr p k v = .ok b ∧ Written a b p k (· = v)) ∧
    ((p, k, .set) ∈ table ∨ (p, k, .vec) ∈ table → ∃ b, a.setStr p k v = .ok b ∧ Written a b p k (Bare v)) ∧
    ((p, k, .str) ∉ table → (p, k, .set) ∉ table → (p, k, .vec) ∉ table → a.setStr p k v = .throw .invalidArgument) := by
  have ht := h0.tabulated
  have hs := ht.shape.reached ht.keep h
  have ap := ht.apart
  have hbare : Bare v (joinTrim [v]) := by
    obtain ⟨l, r, e, h1, h2, h3⟩ := C45_trim v
    have e' : trimmed ([v].flatMap (fun v => v ++ (lit " "))) = trimmed v := by
      have := C45_trim_unique (l := l) (r := r ++ (lit " ")) (m := trimmed v) h1 (by
        intro c hc
        rcases List.mem_append.1 hc with hc | hc
        · exact h2 c hc
        · rw [List.mem_singleton.1 hc]; rfl) h3
      rw [← this]
      congr 1
      rw [← List.append_assoc, ← e]
      simp
    have : joinTrim [v] = trimmed v := e'
    rw [this]
    refine ⟨l, r, e, h1, h2, ?_⟩
    rcases h3 with h3 | ⟨⟨c, t, h3, hc⟩, t', c', h4, hc'⟩
    · rw [h3]; simp
    · constructor
      · rw [h3]; intro x hx; cases hx; exact hc
      · rw [h4]; intro x hx; rw [List.getLast?_append_of_ne_nil _ (by simp)] at hx; cases hx; exact hc'
  simp only [ht.mem_iff, ArgObj.rowsOfType]
  have h1 := setAll_cases id hs.strs ap.strs p k v
  have h2 := setAll_cases joinTrim hs.vecs ap.vecs p k [v]
  have h3 := setAll_cases joinTrim hs.sets ap.sets p k [v]
  refine ⟨fun hm => ?_, fun hm => ?_, fun m1 m2 m3 => ?_⟩
  · obtain ⟨g1, g2, g3, g4, g5⟩ := ap.str_rest p (name_of_row hm)
    obtain ⟨qs, hr, hp, e, e1, e2⟩ := h1.resolve_right (by rintro (⟨hr, -⟩ | ⟨hr, -⟩) <;> exact hr hm)
    have e4 := (h2.resolve_left (by rintro ⟨_, _, hp, _⟩; exact g5 hp)).resolve_left (by rintro ⟨_, hp, _⟩; exact g5 hp)
    have e5 := (h3.resolve_left (by rintro ⟨_, _, hp, _⟩; exact g4 hp)).resolve_left (by rintro ⟨_, hp, _⟩; exact g4 hp)
    refine ⟨{ a with strs := qs }, by unfold ArgObj.setStr; rw [e, e4.2.2, e5.2.2]; rfl, ⟨_, rfl, ?_⟩, fun p' k' hne => ?_⟩
    · rw [propertyValue_eq]; dsimp only
      rw [findValue_none _ hs.ints k g1, findValue_none _ hs.doubles k g2, findValue_none _ hs.sizes k g3, e1]; rfl
    · rw [propertyValue_eq, propertyValue_eq]; dsimp only; rw [e2 _ _ hne]
  · rcases hm with hm | hm
    · obtain ⟨g1, g2, g3, g4, g5⟩ := ap.set_rest p (name_of_row hm)
      obtain ⟨qs, hr, hp, e, e1, e2⟩ := h3.resolve_right (by rintro (⟨hr, -⟩ | ⟨hr, -⟩) <;> exact hr hm)
      have e4 := (h1.resolve_left (by rintro ⟨_, _, hp, _⟩; exact g4 hp)).resolve_left (by rintro ⟨_, hp, _⟩; exact g4 hp)
      have e5 := (h2.resolve_left (by rintro ⟨_, _, hp, _⟩; exact g5 hp)).resolve_left (by rintro ⟨_, hp, _⟩; exact g5 hp)
      refine ⟨{ a with sets := qs }, by unfold ArgObj.setStr; rw [e, e4.2.2, e5.2.2]; rfl, ⟨_, hbare, ?_⟩, fun p' k' hne => ?_⟩
      · rw [propertyValue_eq]; dsimp only
        rw [findValue_none _ hs.ints k g1, findValue_none _ hs.doubles k g2, findValue_none _ hs.sizes k g3,
          findValue_none _ hs.strs k g4, e1]; rfl
      · rw [propertyValue_eq, propertyValue_eq]; dsimp only; rw [e2 _ _ hne]
    · obtain ⟨g1, g2, g3, g4, g5⟩ := ap.vec_rest p (name_of_row hm)
      obtain ⟨qs, hr, hp, e, e1, e2⟩ := h2.resolve_right (by rintro (⟨hr, -⟩ | ⟨hr, -⟩) <;> exact hr hm)
      have e4 := (h1.resolve_left (by rintro ⟨_, _, hp, _⟩; exact g4 hp)).resolve_left (by rintro ⟨_, hp, _⟩; exact g4 hp)
      have e5 := (h3.resolve_left (by rintro ⟨_, _, hp, _⟩; exact g5 hp)).resolve_left (by rintro ⟨_, hp, _⟩; exact g5 hp)
      refine ⟨{ a with vecs := qs }, by unfold ArgObj.setStr; rw [e, e4.2.2, e5.2.2]; rfl, ⟨_, hbare, ?_⟩, fun p' k' hne => ?_⟩
      · rw [propertyValue_eq]; dsimp only
        rw [findValue_none _ hs.ints k g1, findValue_none _ hs.doubles k g2, findValue_none _ hs.sizes k g3,
          findValue_none _ hs.strs k g4, findValue_none _ hs.sets k g5, e1]; rfl
      · rw [propertyValue_eq, propertyValue_eq]; dsimp only; rw [e2 _ _ hne]
  · unfold ArgObj.setStr
    rcases h1.resolve_left (by rintro ⟨_, hr, _⟩; exact m1 hr) with ⟨-, -, e1⟩ | ⟨-, -, e1⟩
    · rw [e1]; rfl
    · rw [e1]
      rcases h2.resolve_left (by rintro ⟨_, hr, _⟩; exact m3 hr) with ⟨-, -, e2⟩ | ⟨-, -, e2⟩
      · rw [Res.ok_bind]; dsimp only; rw [e2]; rfl
      · rw [Res.ok_bind]; dsimp only; rw [e2]
        rcases h3.resolve_left (by rintro ⟨_, hr, _⟩; exact m2 hr) with ⟨-, -, e3⟩ | ⟨-, -, e3⟩
        · rw [Res.ok_bind]; dsimp only; rw [e3]; rfl
        · rw [Res.ok_bind]; dsimp only; rw [e3]; rfl

/-- The hypotheses of C89 and C90 are met, for example, by an integer argument with two bounds set and a value checked. -/
example [Dbl D] : ∃ a : ArgObj Int D, Reached newArgumentInt a ∧ a.propertyValue (lit "PROPERTY_INT") (lit "MAX") = .ok (lit "9") ∧
    a.propertyValue (lit "PROPERTY_INT") (lit "MIN") = .ok (lit "-2") := by
  let fs : FS := fun _ => false
  let o : Map Int := Map.set (Map.set [] (lit "MIN") (-2)) (lit "MAX") 9
  refine ⟨⟨(lit "ARGUMENT_INT"), [⟨intVT, o⟩], [], [], [], [], []⟩, ?_, ?_, ?_⟩
  · have h1 : Reached newArgumentInt (⟨(lit "ARGUMENT_INT"),
        [⟨intVT, Map.set (Map.set [] (lit "MIN") (-2147483648)) (lit "MAX") 9⟩], [], [], [], [], []⟩ : ArgObj Int D) :=
      .setInt (lit "PROPERTY_INT") (lit "MAX") 9 .refl rfl
    have h2 : Reached newArgumentInt (⟨(lit "ARGUMENT_INT"), [⟨intVT, o⟩], [], [], [], [], []⟩ : ArgObj Int D) :=
      .setInt (lit "PROPERTY_INT") (lit "MIN") (-2) h1 rfl
    exact .valid fs 3 h2 rfl
  · rw [propertyValue_eq]; rfl
  · rw [propertyValue_eq]; rfl

end

end Verif.Args
