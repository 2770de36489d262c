import Verif.ParserCopyLemmas
/-
Lemmas for C135: `parse` in memory is `parse` on what the user sees, and it changes only argument objects of that parser.
-/
namespace Verif.Args

section
variable {D : Type}

/-- The map of pointers of one kind. -/
def Handle.map (h : Handle D) : ArgKind → Map Nat
  | .str => h.strArg
  | .switch => h.switchArg
  | .int => h.intArg
  | .double => h.doubleArg
  | .file => h.fileArg

theorem Handle.ptr_eq (h : Handle D) (k : ArgKind) (f : Str) : h.ptr k f = (h.map k).get f := by cases k <;> rfl

/-- The number of objects of one kind. -/
def Store.len (st : Store D) : ArgKind → Nat
  | .str => st.str.length
  | .switch => st.switch.length
  | .int => st.int.length
  | .double => st.double.length
  | .file => st.file.length

/-- The object at one address is the same in both. -/
def Same (st st' : Store D) : ArgKind → Nat → Prop
  | .str, n => st'.str[n]? = st.str[n]?
  | .switch, n => st'.switch[n]? = st.switch[n]?
  | .int, n => st'.int[n]? = st.int[n]?
  | .double, n => st'.double[n]? = st.double[n]?
  | .file, n => st'.file[n]? = st.file[n]?

theorem Same.refl (st : Store D) (k : ArgKind) (n : Nat) : Same st st k n := by cases k <;> rfl
theorem Same.trans {a b c : Store D} {k : ArgKind} {n : Nat} (h : Same a b k n) (h' : Same b c k n) : Same a c k n := by
  cases k <;> exact Eq.trans h' h

/-- Every pointer of the parser leads to an object made for that flag. -/
def Fits' (own : ArgKind → List Str) (h : Handle D) : Prop := ∀ k, Fit (own k) (h.map k)
/-- The ledger has an entry for every object. -/
def Sized (own : ArgKind → List Str) (st : Store D) : Prop := ∀ k, st.len k = (own k).length

/-- Nothing was allocated, no pointer changed, and only objects of this parser did. -/
structure Quiet (x y : InMem D) : Prop where
  ptrs : ∀ k, y.h.map k = x.h.map k
  lens : ∀ k, y.st.len k = x.st.len k
  frame : ∀ k n, Same x.st y.st k n ∨ ∃ f, (x.h.map k).get f = some n

theorem Quiet.refl (x : InMem D) : Quiet x x := ⟨fun _ => rfl, fun _ => rfl, fun _ _ => .inl (Same.refl _ _ _)⟩

theorem Quiet.trans {x y z : InMem D} (h : Quiet x y) (h' : Quiet y z) : Quiet x z := by
  refine ⟨fun k => (h'.ptrs k).trans (h.ptrs k), fun k => (h'.lens k).trans (h.lens k), fun k n => ?_⟩
  rcases h.frame k n with e | e
  · rcases h'.frame k n with e' | e'
    · exact .inl (e.trans e')
    · rw [h.ptrs k] at e'; exact .inr e'
  · exact .inr e

theorem Quiet.fits {x y : InMem D} (h : Quiet x y) {own : ArgKind → List Str} (f : Fits' own x.h) : Fits' own y.h := fun k => by
  rw [h.ptrs k]; exact f k

theorem Quiet.sized {x y : InMem D} (h : Quiet x y) {own : ArgKind → List Str} (f : Sized own x.st) : Sized own y.st := fun k => by
  rw [h.lens k]; exact f k

/-- Only members other than the pointers changed. -/
theorem Quiet.values (st : Store D) {h h' : Handle D} (e : ∀ k, h'.map k = h.map k) : Quiet ⟨st, h⟩ ⟨st, h'⟩ :=
  ⟨e, fun _ => rfl, fun _ _ => .inl (Same.refl _ _ _)⟩

/-- What the state of `parseArg_` looks like. -/
def ArgStateH.seen (s : ArgStateH D) : ArgState D := ⟨s.x.seen, s.used, s.unrec⟩

/-- The same outcome, the same object as seen, and a quiet change. -/
structure Does (s : ArgStateH D) (y : Left (ArgStateH D)) (z : Left (ArgState D)) : Prop where
  out : y.2 = z.2
  seen : y.1.seen = z.1
  quiet : Quiet s.x y.1.x

theorem Does.andThen {s : ArgStateH D} {y : Left (ArgStateH D)} {z : Left (ArgState D)} {f : ArgStateH D → Left (ArgStateH D)}
    {g : ArgState D → Left (ArgState D)} (h : Does s y z) (hf : ∀ s', Quiet s.x s'.x → Does s' (f s') (g s'.seen)) :
    Does s (y.andThen f) (z.andThen g) := by
  obtain ⟨t, r⟩ := y
  obtain ⟨t', r'⟩ := z
  obtain ⟨h1, h2, h3⟩ := h
  simp only at h1 h2 h3
  subst h1 h2
  unfold Left.andThen
  cases r with
  | ok u =>
    have := hf t h3
    exact ⟨this.out, this.seen, h3.trans this.quiet⟩
  | _ => exact ⟨rfl, rfl, h3⟩

theorem Does.mk' {s s' : ArgStateH D} {r : Res Unit} {z : ArgState D} (e : s'.seen = z) (q : Quiet s.x s'.x) : Does s (s', r) (z, r) := ⟨rfl, e, q⟩

theorem callAt_some {A : Type} {arena : List A} {i : Nat} {a : A} (h : arena[i]? = some a) (f : A → Left A) :
    callAt arena i f = (arena.set i (f a).1, (f a).2) := by simp [callAt, h]

/-- The pointer of a flag leads to an object. -/
theorem Fit.object {own : List Str} {m : Map Nat} (h : Fit own m) {A : Type} {arena : List A} (hl : arena.length = own.length) {f : Str} {i : Nat}
    (hg : m.get f = some i) : ∃ a, arena[i]? = some a ∧ (deref arena m).get f = some a := by
  have hlt : i < arena.length := by rw [hl]; exact h.get_lt hg
  refine ⟨arena[i], List.getElem?_eq_getElem hlt, ?_⟩
  rw [h.get_deref hl, hg]
  exact List.getElem?_eq_getElem hlt

theorem Fit.absent {own : List Str} {m : Map Nat} (h : Fit own m) {A : Type} {arena : List A} (hl : arena.length = own.length) {f : Str}
    (hg : m.get f = none) : (deref arena m).get f = none := by
  rw [h.get_deref hl, hg]; rfl

variable {own : ArgKind → List Str} {s : ArgStateH D}

theorem strStage_does (hf : Fits' own s.x.h) (hs : Sized own s.x.st) (fs : FS) (flag : Str) (rest : List Str) :
    Does s (strStageH fs flag rest s) (strStageL fs flag rest s.seen) := by
  have f1 : Fit (own .str) s.x.h.strArg := hf .str
  have l1 : s.x.st.str.length = (own .str).length := hs .str
  unfold strStageH strStageL
  cases hg : s.x.h.strArg.get flag with
  | none =>
    have : s.seen.p.strArg.get flag = none := f1.absent l1 hg
    rw [this]
    exact .mk' rfl (.refl _)
  | some i =>
    obtain ⟨a, ha, hd⟩ := f1.object l1 hg
    have : s.seen.p.strArg.get flag = some a := hd
    rw [this]
    simp only []
    show Does s _ (match rest.drop s.used with | [] => _ | argument :: _ => _)
    cases rest.drop s.used with
    | nil => exact .mk' rfl (.refl _)
    | cons argument t =>
      simp only [callAt_some ha]
      refine Does.andThen (.mk' ?_ ⟨fun _ => rfl, fun k => ?_, fun k n => ?_⟩) fun s' _ => .mk' rfl (.values _ fun _ => rfl)
      · simp only [ArgStateH.seen, InMem.seen]
        rw [f1.deref_write l1 hg]
      · cases k <;> simp [Store.len]
      · cases k with
        | str =>
          by_cases c : i = n
          · exact .inr ⟨flag, c ▸ hg⟩
          · exact .inl (by simp [Same, c])
        | _ => exact .inl rfl

theorem fileStage_does (hf : Fits' own s.x.h) (hs : Sized own s.x.st) (fs : FS) (flag : Str) (rest : List Str) :
    Does s (fileStageH fs flag rest s) (fileStageL fs flag rest s.seen) := by
  have f1 : Fit (own .file) s.x.h.fileArg := hf .file
  have l1 : s.x.st.file.length = (own .file).length := hs .file
  unfold fileStageH fileStageL
  cases hg : s.x.h.fileArg.get flag with
  | none =>
    have : s.seen.p.fileArg.get flag = none := f1.absent l1 hg
    rw [this]
    exact .mk' rfl (.refl _)
  | some i =>
    obtain ⟨a, ha, hd⟩ := f1.object l1 hg
    have : s.seen.p.fileArg.get flag = some a := hd
    rw [this]
    simp only []
    show Does s _ (match rest.drop s.used with | [] => _ | argument :: _ => _)
    cases rest.drop s.used with
    | nil => exact .mk' rfl (.refl _)
    | cons argument t =>
      simp only [callAt_some ha]
      refine Does.andThen (.mk' ?_ ⟨fun _ => rfl, fun k => ?_, fun k n => ?_⟩) fun s' _ => .mk' rfl (.values _ fun _ => rfl)
      · simp only [ArgStateH.seen, InMem.seen]
        rw [f1.deref_write l1 hg]
      · cases k <;> simp [Store.len]
      · cases k with
        | file =>
          by_cases c : i = n
          · exact .inr ⟨flag, c ▸ hg⟩
          · exact .inl (by simp [Same, c])
        | _ => exact .inl rfl

theorem intStage_does (hf : Fits' own s.x.h) (hs : Sized own s.x.st) (fs : FS) (flag : Str) (rest : List Str) :
    Does s (intStageH fs flag rest s) (intStageL fs flag rest s.seen) := by
  have f1 : Fit (own .int) s.x.h.intArg := hf .int
  have l1 : s.x.st.int.length = (own .int).length := hs .int
  unfold intStageH intStageL
  cases hg : s.x.h.intArg.get flag with
  | none =>
    have : s.seen.p.intArg.get flag = none := f1.absent l1 hg
    rw [this]
    exact .mk' rfl (.refl _)
  | some i =>
    obtain ⟨a, ha, hd⟩ := f1.object l1 hg
    have : s.seen.p.intArg.get flag = some a := hd
    rw [this]
    simp only []
    show Does s _ (match rest.drop s.used with | [] => _ | argument :: _ => _)
    cases rest.drop s.used with
    | nil => exact .mk' rfl (.refl _)
    | cons argument t =>
      simp only [callAt_some ha]
      cases stoi argument with
      | ok v =>
        refine Does.andThen (.mk' ?_ ⟨fun _ => rfl, fun k => ?_, fun k n => ?_⟩) fun s' _ => .mk' rfl (.values _ fun _ => rfl)
        · simp only [ArgStateH.seen, InMem.seen]
          rw [f1.deref_write l1 hg]
        · cases k <;> simp [Store.len]
        · cases k with
          | int =>
            by_cases c : i = n
            · exact .inr ⟨flag, c ▸ hg⟩
            · exact .inl (by simp [Same, c])
          | _ => exact .inl rfl
      | _ => exact .mk' rfl (.refl _)

theorem doubleStage_does [Dbl D] (hf : Fits' own s.x.h) (hs : Sized own s.x.st) (fs : FS) (flag : Str) (rest : List Str) :
    Does s (doubleStageH fs flag rest s) (doubleStageL fs flag rest s.seen) := by
  have f1 : Fit (own .double) s.x.h.doubleArg := hf .double
  have l1 : s.x.st.double.length = (own .double).length := hs .double
  unfold doubleStageH doubleStageL
  cases hg : s.x.h.doubleArg.get flag with
  | none =>
    have : s.seen.p.doubleArg.get flag = none := f1.absent l1 hg
    rw [this]
    exact .mk' rfl (.refl _)
  | some i =>
    obtain ⟨a, ha, hd⟩ := f1.object l1 hg
    have : s.seen.p.doubleArg.get flag = some a := hd
    rw [this]
    simp only []
    show Does s _ (match rest.drop s.used with | [] => _ | argument :: _ => _)
    cases rest.drop s.used with
    | nil => exact .mk' rfl (.refl _)
    | cons argument t =>
      simp only [callAt_some ha]
      cases (Dbl.stod argument : Res D) with
      | ok v =>
        refine Does.andThen (.mk' ?_ ⟨fun _ => rfl, fun k => ?_, fun k n => ?_⟩) fun s' _ => .mk' rfl (.values _ fun _ => rfl)
        · simp only [ArgStateH.seen, InMem.seen]
          rw [f1.deref_write l1 hg]
        · cases k <;> simp [Store.len]
        · cases k with
          | double =>
            by_cases c : i = n
            · exact .inr ⟨flag, c ▸ hg⟩
            · exact .inl (by simp [Same, c])
          | _ => exact .inl rfl
      | _ => exact .mk' rfl (.refl _)

theorem switchStage_does (hf : Fits' own s.x.h) (hs : Sized own s.x.st) (fs : FS) (flag : Str) (rest : List Str) :
    Does s (switchStageH fs flag rest s) (switchStageL fs flag rest s.seen) := by
  have f1 : Fit (own .switch) s.x.h.switchArg := hf .switch
  have l1 : s.x.st.switch.length = (own .switch).length := hs .switch
  unfold switchStageH switchStageL
  cases hg : s.x.h.switchArg.get flag with
  | none =>
    have : s.seen.p.switchArg.get flag = none := f1.absent l1 hg
    rw [this]
    exact .mk' rfl (.refl _)
  | some i =>
    obtain ⟨a, ha, hd⟩ := f1.object l1 hg
    have : s.seen.p.switchArg.get flag = some a := hd
    rw [this]
    simp only []
    show Does s _ (if !nextIsFlag s.x.seen (rest.drop s.used) then (match rest.drop s.used with | [] => _ | argument :: _ => _) else _)
    have hn : nextIsFlag s.x.seen (rest.drop s.used) = nextIsFlagH s.x.h (rest.drop s.used) := rfl
    rw [hn]
    cases nextIsFlagH s.x.h (rest.drop s.used) with
    | true => exact .mk' rfl (.values _ fun _ => rfl)
    | false =>
      simp only [Bool.not_false, if_true]
      cases rest.drop s.used with
      | nil => exact .mk' rfl (.values _ fun _ => rfl)
      | cons argument t =>
        simp only [callAt_some ha]
        refine Does.andThen (.mk' ?_ ⟨fun _ => rfl, fun k => ?_, fun k n => ?_⟩) fun s' _ =>
          Does.andThen (.mk' rfl (.values _ fun _ => rfl)) fun s' _ => .mk' rfl (.values _ fun _ => rfl)
        · simp only [ArgStateH.seen, InMem.seen]
          rw [f1.deref_write l1 hg]
        · cases k <;> simp [Store.len]
        · cases k with
          | switch =>
            by_cases c : i = n
            · exact .inr ⟨flag, c ▸ hg⟩
            · exact .inl (by simp [Same, c])
          | _ => exact .inl rfl

variable [Dbl D]

theorem parseArg_does {x : InMem D} (hf : Fits' own x.h) (hs : Sized own x.st) (fs : FS) (token : Str) (rest : List Str) :
    Does ⟨x, 0, true⟩ (parseArgH fs x token rest) (parseArgL fs x.seen token rest) := by
  have hr : resolve x.seen token = resolveH x.h token := rfl
  unfold parseArgH parseArgL
  rw [hr]
  refine Does.andThen (strStage_does (s := ⟨x, 0, true⟩) hf hs fs _ rest) fun s q => ?_
  have hf := q.fits hf
  have hs := q.sized hs
  refine Does.andThen (switchStage_does hf hs fs _ rest) fun s q => ?_
  have hf := q.fits hf
  have hs := q.sized hs
  refine Does.andThen (intStage_does hf hs fs _ rest) fun s q => ?_
  have hf := q.fits hf
  have hs := q.sized hs
  refine Does.andThen (doubleStage_does hf hs fs _ rest) fun s q => ?_
  have hf := q.fits hf
  have hs := q.sized hs
  refine Does.andThen (fileStage_does hf hs fs _ rest) fun s q => ?_
  show Does s _ (if s.unrec then _ else _)
  cases s.unrec <;> exact .mk' rfl (.refl _)

/-- The same for a whole call. -/
structure Acts (x : InMem D) (y : Left (InMem D)) (z : Left (Parser D)) : Prop where
  out : y.2 = z.2
  seen : y.1.seen = z.1
  quiet : Quiet x y.1

omit [Dbl D] in
theorem postAll_seen {S : Type} {own : List Str} {m : Map Nat} (h : Fit own m) {arena : List (ArgObj S D)} (hl : arena.length = own.length) :
    postAllH arena m = (deref arena m).foldlM (fun _ a => a.2.post) () := by
  unfold postAllH
  induction m with
  | nil => rfl
  | cons e m ih =>
    have hlt : e.2 < arena.length := by rw [hl]; exact h.lt (by simp)
    rw [deref_cons (List.getElem?_eq_getElem hlt), List.foldlM_cons, List.foldlM_cons, List.getElem?_eq_getElem hlt]
    simp only []
    congr 1
    funext _
    exact ih h.tail

omit [Dbl D] in
theorem postCheck_seen {x : InMem D} (hf : Fits' own x.h) (hs : Sized own x.st) : postParseCheckH x = postParseCheck x.seen := by
  have e1 : postAllH x.st.str x.h.strArg = _ := postAll_seen (hf .str) (hs .str)
  have e2 : postAllH x.st.switch x.h.switchArg = _ := postAll_seen (hf .switch) (hs .switch)
  have e3 : postAllH x.st.int x.h.intArg = _ := postAll_seen (hf .int) (hs .int)
  have e4 : postAllH x.st.double x.h.doubleArg = _ := postAll_seen (hf .double) (hs .double)
  have e5 : postAllH x.st.file x.h.fileArg = _ := postAll_seen (hf .file) (hs .file)
  unfold postParseCheckH postParseCheck
  rw [e1, e2, e3, e4, e5]
  rfl

theorem parseLoop_acts (fs : FS) (size : Nat) : ∀ (args : List Str) (skip allowed : Nat) {x : InMem D}, Fits' own x.h → Sized own x.st →
    Acts x (parseLoopH fs size skip allowed x args) (parseLoopL fs size skip allowed x.seen args)
  | [], skip, allowed, x, hf, hs => by
    unfold parseLoopH parseLoopL
    exact ⟨rfl, rfl, .refl _⟩
  | token :: rest, skip + 1, allowed, x, hf, hs => by
    unfold parseLoopH parseLoopL
    exact parseLoop_acts fs size rest _ _ hf hs
  | token :: rest, 0, allowed, x, hf, hs => by
    unfold parseLoopH parseLoopL
    split
    · split
      · exact ⟨rfl, rfl, .refl _⟩
      · exact parseLoop_acts fs size rest _ _ hf hs
    · split
      · exact ⟨rfl, rfl, .refl _⟩
      · split
        · split
          · exact ⟨rfl, rfl, .refl _⟩
          · exact parseLoop_acts fs size rest _ _ hf hs
        · obtain ⟨h1, h2, h3⟩ := parseArg_does hf hs fs token rest
          rw [← h1, ← h2]
          cases hr : (parseArgH fs x token rest).2 with
          | ok u =>
            simp only []
            obtain ⟨k1, k2, k3⟩ := parseLoop_acts fs size rest (parseArgH fs x token rest).1.used allowed (h3.fits hf) (h3.sized hs)
            exact ⟨k1, k2, h3.trans k3⟩
          | _ => exact ⟨rfl, rfl, h3⟩

theorem parse_acts {x : InMem D} (hf : Fits' own x.h) (hs : Sized own x.st) (fs : FS) (args : List Str) : Acts x (parseH fs x args) (parseL fs x.seen args) := by
  unfold parseH parseL
  split
  · exact ⟨rfl, rfl, .refl _⟩
  · obtain ⟨h1, h2, h3⟩ := parseLoop_acts fs (args.length + 1) args 0 2 hf hs
    unfold Left.andThen
    rw [← h1, ← h2]
    cases hr : (parseLoopH fs (args.length + 1) 0 2 x args).2 with
    | ok u => exact ⟨postCheck_seen (h3.fits hf) (h3.sized hs), rfl, h3⟩
    | _ => exact ⟨h1, h2, h3⟩

end
end Verif.Args
