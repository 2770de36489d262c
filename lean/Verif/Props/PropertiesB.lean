import Verif.Props.Properties
import Verif.Props.StringsB
/-
Property C97: constructing and setting the file-extension and sister-file properties directly.
-/
namespace Verif.Args
open Strings

/-- An extension as a user writes it: empty, or a dot followed by text without a dot. -/
def DotExt (ext : Str) : Prop := ext = [] ∨ ∃ t, ext = '.' :: t ∧ '.' ∉ t

/-- The wild card: anything that starts with `*`. -/
def Wild (ext : Str) : Prop := ∃ t, ext = '*' :: t

private theorem before_dot (ext : Str) (hf : Fits ext) :
    ∃ b, grabStrBeforeLastOccurance ext (lit ".") = .ok b ∧ (b = [] ↔ DotExt ext) := by
  rcases C96_last_of ext (lit ".") hf with ⟨b, c, a, e, hc, ha, h, -⟩ | ⟨h1, h, -⟩
  · have hc' : c = '.' := by simpa using hc
    subst hc'
    have ha' : '.' ∉ a := fun h => ha _ h (by simp)
    refine ⟨b, h, ?_, ?_⟩
    · intro hb; subst hb; right; exact ⟨a, e, ha'⟩
    · rintro (h0 | ⟨t, ht, hd⟩)
      · rw [h0] at e; simp at e
      · rw [ht] at e
        cases b with
        | nil => rfl
        | cons x b =>
          simp only [List.cons_append, List.cons.injEq] at e
          exfalso; apply hd; rw [e.2]; simp
  · refine ⟨ext, h, ?_, ?_⟩
    · intro e; left; exact e
    · rintro (h0 | ⟨t, ht, hd⟩)
      · exact h0
      · exfalso; exact h1 '.' (by rw [ht]; simp) (by simp)

private theorem sisterCheck (ext : Str) (hf : Fits ext) :
    (DotExt ext → sisterCheckExt ext = .ok ()) ∧ (¬ DotExt ext → sisterCheckExt ext = .throw .invalidArgument) := by
  obtain ⟨b, e, hb⟩ := before_dot ext hf
  unfold sisterCheckExt
  rw [e]; simp only [Res.ok_bind]
  constructor
  · intro h; rw [if_neg (by simp [hb.2 h])]
  · intro h; rw [if_pos (fun e => h (hb.1 e))]

private theorem check (ext : Str) (hf : Fits ext) :
    (DotExt ext ∨ Wild ext → extCheck ext = .ok ()) ∧
    (¬ (DotExt ext ∨ Wild ext) → extCheck ext = .throw .invalidArgument) := by
  obtain ⟨b, e, hb⟩ := before_dot ext hf
  have hw : char0 ext = '*' ↔ Wild ext := by
    unfold char0 Wild
    cases ext with
    | nil =>
      constructor
      · intro h; exact absurd h (by decide)
      · rintro ⟨t, ht⟩; cases ht
    | cons c t => simp
  unfold extCheck
  by_cases h0 : ext = []
  · rw [if_pos h0]
    exact ⟨fun _ => rfl, fun h => absurd (Or.inl (Or.inl h0)) h⟩
  · rw [if_neg h0]
    by_cases h1 : char0 ext = '*'
    · rw [if_pos h1]
      exact ⟨fun _ => rfl, fun h => absurd (Or.inr (hw.1 h1)) h⟩
    · rw [if_neg h1, e]; simp only [Res.ok_bind]
      constructor
      · rintro (h | h)
        · rw [if_neg (by simp [hb.2 h])]
        · exact absurd (hw.2 h) h1
      · intro h; rw [if_pos (fun e => h (Or.inl (hb.1 e)))]

/-- C97: `PropertyFileExt(ext)` accepts exactly extensions and wild cards, and then allows exactly that one. -/
theorem C97_ext_one (ext : Str) (hf : Fits ext) :
    (DotExt ext ∨ Wild ext → ∃ p, newPropertyFileExtOne ext = .ok p ∧ p.vt.name = (lit "PROPERTY_FILE_EXT") ∧
      getOpt p.opts (lit "ALLOWED_FILE_EXT") = .ok [ext]) ∧
    (¬ (DotExt ext ∨ Wild ext) → newPropertyFileExtOne ext = .throw .invalidArgument) := by
  constructor
  · intro h
    refine ⟨_, by unfold newPropertyFileExtOne; rw [(check ext hf).1 h]; rfl, rfl, ?_⟩
    simp [getOpt, strSetInsert]
  · intro h; unfold newPropertyFileExtOne; rw [(check ext hf).2 h]; rfl

private theorem insertAll (exts : List Str) (hf : ∀ e ∈ exts, Fits e) (s0 : List Str) :
    ((∀ e ∈ exts, DotExt e ∨ Wild e) →
      ∃ s, exts.foldlM (fun s ext => do extCheck ext; Res.ok (strSetInsert ext s)) s0 = .ok s ∧
        ∀ x, x ∈ s ↔ x ∈ exts ∨ x ∈ s0) ∧
    (¬ (∀ e ∈ exts, DotExt e ∨ Wild e) →
      exts.foldlM (fun s ext => do extCheck ext; Res.ok (strSetInsert ext s)) s0 = .throw .invalidArgument) := by
  induction exts generalizing s0 with
  | nil => exact ⟨fun _ => ⟨s0, rfl, fun x => by simp⟩, fun h => absurd (by simp) h⟩
  | cons e exts ih =>
    have ihe := ih (fun x hx => hf x (by simp [hx])) (strSetInsert e s0)
    by_cases he : DotExt e ∨ Wild e
    · have hstep : (do extCheck e; Res.ok (strSetInsert e s0) : Res (List Str)) = .ok (strSetInsert e s0) := by
        rw [(check e (hf e (by simp))).1 he]; rfl
      constructor
      · intro h
        obtain ⟨s, h1, h2⟩ := ihe.1 (fun x hx => h x (by simp [hx]))
        refine ⟨s, ?_, fun x => ?_⟩
        · rw [List.foldlM_cons, hstep]; exact h1
        · rw [h2, mem_strSetInsert]; simp only [List.mem_cons]
          constructor
          · rintro (h | h | h)
            · exact .inl (.inr h)
            · exact .inl (.inl h)
            · exact .inr h
          · rintro ((h | h) | h)
            · exact .inr (.inl h)
            · exact .inl h
            · exact .inr (.inr h)
      · intro h
        rw [List.foldlM_cons, hstep]
        exact ihe.2 (fun hall => h (fun x hx => by
          rcases List.mem_cons.1 hx with rfl | hx
          · exact he
          · exact hall x hx))
    · constructor
      · intro h; exact absurd (h e (by simp)) he
      · intro _
        rw [List.foldlM_cons, (check e (hf e (by simp))).2 he]; rfl

/-- C97: `PropertyFileExt(exts)` accepts exactly sets of extensions and wild cards, and then allows exactly those. -/
theorem C97_ext_set (exts : List Str) (hf : ∀ e ∈ exts, Fits e) :
    ((∀ e ∈ exts, DotExt e ∨ Wild e) → ∃ p s, newPropertyFileExtOf exts = .ok p ∧ p.vt.name = (lit "PROPERTY_FILE_EXT") ∧
      getOpt p.opts (lit "ALLOWED_FILE_EXT") = .ok s ∧ ∀ x, x ∈ s ↔ x ∈ exts) ∧
    (¬ (∀ e ∈ exts, DotExt e ∨ Wild e) → newPropertyFileExtOf exts = .throw .invalidArgument) := by
  constructor
  · intro h
    obtain ⟨s, h1, h2⟩ := (insertAll exts hf []).1 h
    refine ⟨_, s, by unfold newPropertyFileExtOf; rw [h1]; rfl, rfl, by simp [getOpt], fun x => by simp [h2]⟩
  · intro h; unfold newPropertyFileExtOf; rw [(insertAll exts hf []).2 h]; rfl

/-- C97: a property made with `PropertyFileExt(ext)` accepts exactly the paths whose file name has that extension (every
path, for a wild card), and validation changes nothing. -/
theorem C97_ext_validates (fs : FS) (allowed : Str) (p : PropObj Str (List Str)) (hp : newPropertyFileExtOne allowed = .ok p)
    {path dir core ext : Str} (hpath : PathParts path dir core ext) (hf : Fits path) :
    (ext = allowed ∨ Wild allowed → p.vt.valid fs path p.opts = .ok p.opts) ∧
    (¬ (ext = allowed ∨ Wild allowed) → p.vt.valid fs path p.opts = .throw .invalidArgument) := by
  unfold newPropertyFileExtOne at hp
  obtain ⟨_, _, hp⟩ := Res.bind_eq_ok.1 hp
  cases hp
  have hget : getOpt (Map.set [] (lit "ALLOWED_FILE_EXT") (strSetInsert allowed [])) (lit "ALLOWED_FILE_EXT") = .ok [allowed] := by
    simp [getOpt, strSetInsert]
  have key := C54_ext fs _ [allowed] hget hpath hf
  have hiff : (ext ∈ [allowed] ∨ ∃ t, '*' :: t ∈ [allowed]) ↔ (ext = allowed ∨ Wild allowed) := by
    unfold Wild
    simp only [List.mem_singleton]
    constructor
    · rintro (h | ⟨t, h⟩)
      · exact .inl h
      · exact .inr ⟨t, h.symm⟩
    · rintro (h | ⟨t, h⟩)
      · exact .inl h
      · exact .inr ⟨t, h.symm⟩
  exact ⟨fun h => key.1 (hiff.2 h), fun h => key.2 (fun h' => h (hiff.1 h'))⟩

/-- C97: the setters of PropertyFileExt store whatever they are given, without the check of the constructors, under the
one option that exists; another option is refused. -/
theorem C97_ext_setters (p : PropObj Str (List Str)) (old : List Str)
    (hp : ∀ k, getOpt p.opts k = if k = (lit "ALLOWED_FILE_EXT") then .ok old else .throw .invalidArgument) (option : Str) :
    (option = (lit "ALLOWED_FILE_EXT") →
      (∀ var, ∃ o, fileExtSetStr p.opts option var = .ok o ∧ getOpt o (lit "ALLOWED_FILE_EXT") = .ok [var]) ∧
      (∀ vars, ∃ o, fileExtSetSet p.opts option vars = .ok o ∧ getOpt o (lit "ALLOWED_FILE_EXT") = .ok vars)) ∧
    (option ≠ (lit "ALLOWED_FILE_EXT") →
      (∀ var, fileExtSetStr p.opts option var = .throw .invalidArgument) ∧
      (∀ vars, fileExtSetSet p.opts option vars = .throw .invalidArgument)) := by
  have hg := hp option
  unfold getOpt at hg
  constructor
  · intro ho
    rw [if_pos ho] at hg
    cases hgo : p.opts.get option with
    | none => rw [hgo] at hg; cases hg
    | some v =>
      refine ⟨fun var => ⟨_, by unfold fileExtSetStr setOpt; rw [hgo], ?_⟩,
        fun vars => ⟨_, by unfold fileExtSetSet setOpt; rw [hgo], ?_⟩⟩
      · rw [ho]; simp [getOpt, strSetInsert]
      · rw [ho]; simp [getOpt]
  · intro ho
    rw [if_neg ho] at hg
    cases hgo : p.opts.get option with
    | some v => rw [hgo] at hg; cases hg
    | none =>
      exact ⟨fun var => by unfold fileExtSetStr setOpt; rw [hgo], fun vars => by unfold fileExtSetSet setOpt; rw [hgo]⟩

/-- C97: the setters of PropertySisterFile accept, for ALLOWED_SISTER_FILE_EXT, exactly extensions, store them and change
no other option; every other option is refused. -/
theorem C97_sister_setters (o : Map (List Str)) (option : Str) :
    (∀ var, Fits var →
      (option = (lit "ALLOWED_SISTER_FILE_EXT") ∧ DotExt var → ∃ o', sisterSetStr o option var = .ok o' ∧
        getOpt o' option = .ok [var] ∧ ∀ k, k ≠ option → getOpt o' k = getOpt o k) ∧
      (¬ (option = (lit "ALLOWED_SISTER_FILE_EXT") ∧ DotExt var) → sisterSetStr o option var = .throw .invalidArgument)) ∧
    (∀ vars : List Str, (∀ v ∈ vars, Fits v) →
      (option = (lit "ALLOWED_SISTER_FILE_EXT") ∧ (∀ v ∈ vars, DotExt v) → ∃ o', sisterSetVec o option vars = .ok o' ∧
        getOpt o' option = .ok vars ∧ ∀ k, k ≠ option → getOpt o' k = getOpt o k) ∧
      (¬ (option = (lit "ALLOWED_SISTER_FILE_EXT") ∧ ∀ v ∈ vars, DotExt v) →
        sisterSetVec o option vars = .throw .invalidArgument)) := by
  constructor
  · intro var hv
    constructor
    · rintro ⟨ho, hd⟩
      refine ⟨o.set option [var], by unfold sisterSetStr; rw [if_pos ho, (sisterCheck var hv).1 hd]; rfl, by simp [getOpt],
        fun k hk => by simp [getOpt, Map.get_set_ne _ hk]⟩
    · intro h
      unfold sisterSetStr
      by_cases ho : option = (lit "ALLOWED_SISTER_FILE_EXT")
      · rw [if_pos ho, (sisterCheck var hv).2 (fun hd => h ⟨ho, hd⟩)]; rfl
      · rw [if_neg ho]; split <;> rfl
  · intro vars hv
    have hfold : ((∀ v ∈ vars, DotExt v) → vars.foldlM (fun _ v => sisterCheckExt v) () = .ok ()) ∧
        (¬ (∀ v ∈ vars, DotExt v) → vars.foldlM (fun _ v => sisterCheckExt v) () = .throw .invalidArgument) := by
      clear o
      induction vars with
      | nil => exact ⟨fun _ => rfl, fun h => absurd (by simp) h⟩
      | cons v vars ih =>
        have ih := ih (fun x hx => hv x (by simp [hx]))
        by_cases hd : DotExt v
        · rw [List.foldlM_cons, (sisterCheck v (hv v (by simp))).1 hd]
          simp only [Res.ok_bind]
          exact ⟨fun h => ih.1 (fun x hx => h x (by simp [hx])), fun h => ih.2 (fun hall => h (fun x hx => by
            rcases List.mem_cons.1 hx with rfl | hx
            · exact hd
            · exact hall x hx))⟩
        · rw [List.foldlM_cons, (sisterCheck v (hv v (by simp))).2 hd]
          exact ⟨fun h => absurd (h v (by simp)) hd, fun _ => rfl⟩
    constructor
    · rintro ⟨ho, hd⟩
      refine ⟨o.set option vars, by unfold sisterSetVec; rw [if_pos ho, hfold.1 hd]; rfl, by simp [getOpt],
        fun k hk => by simp [getOpt, Map.get_set_ne _ hk]⟩
    · intro h
      unfold sisterSetVec
      by_cases ho : option = (lit "ALLOWED_SISTER_FILE_EXT")
      · rw [if_pos ho, hfold.2 (fun hd => h ⟨ho, hd⟩)]; rfl
      · rw [if_neg ho]

/-- C97: `PropertySisterFile::extSupported` accepts exactly the extensions that were allowed. -/
theorem C97_sister_supported (o : Map (List Str)) (allowed : List Str) (ext : Str) (hf : Fits ext)
    (ho : getOpt o (lit "ALLOWED_SISTER_FILE_EXT") = .ok allowed) :
    (DotExt ext ∧ ext ∈ allowed → sisterExtSupported o ext = .ok ()) ∧
    (¬ (DotExt ext ∧ ext ∈ allowed) → sisterExtSupported o ext = .throw .invalidArgument) := by
  unfold sisterExtSupported
  have hany : allowed.any (fun e => e == ext) = true ↔ ext ∈ allowed := by
    rw [List.any_eq_true]
    constructor
    · rintro ⟨x, hx, e⟩; rw [← beq_iff_eq.1 e]; exact hx
    · intro h; exact ⟨ext, h, by simp⟩
  constructor
  · rintro ⟨hd, hm⟩
    rw [(sisterCheck ext hf).1 hd, ho]
    simp only [Res.ok_bind]
    rw [if_pos (hany.2 hm)]
  · intro h
    by_cases hd : DotExt ext
    · rw [(sisterCheck ext hf).1 hd, ho]
      simp only [Res.ok_bind]
      rw [if_neg (fun hm => h ⟨hd, hany.1 hm⟩)]
    · rw [(sisterCheck ext hf).2 hd]; rfl

example : DotExt (lit ".pun") ∧ Wild (lit "*") ∧ ¬ (DotExt (lit "pun") ∨ Wild (lit "pun")) := by
  refine ⟨.inr ⟨(lit "pun"), rfl, by decide⟩, ⟨[], rfl⟩, ?_⟩
  rintro ((h | ⟨t, h, -⟩) | ⟨t, h⟩) <;> simp at h
example : (newPropertyFileExtOne (lit ".log")).isOk = true ∧ newPropertyFileExtOne (lit "a.log") matches .throw _ :=
  ⟨by decide, by decide⟩
example : sisterExtSupported (Map.set [] (lit "ALLOWED_SISTER_FILE_EXT") [(lit ".pun")]) (lit ".pun") = .ok () := by decide
example : ∀ k, getOpt newPropertyFileExt.opts k =
    if k = (lit "ALLOWED_FILE_EXT") then .ok [(lit "*")] else .throw .invalidArgument := by
  intro k
  simp only [newPropertyFileExt, getOpt, Map.get_set]
  split
  · rename_i h; split at h
    · cases h
    · rename_i h2; rw [if_neg h2]
  · rename_i v h; split at h
    · rename_i h2; cases h; rw [if_pos h2]
    · cases h

end Verif.Args
