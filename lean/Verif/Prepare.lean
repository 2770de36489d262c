import Verif.CalcJParse
import Verif.Spec.Files
import Verif.Props.Strings
import Verif.Props.Parameters
/-
What `prepareParameters` does after an accepted command line.
-/
namespace Verif.Args
open Strings
section
variable {D : Type}

theorem Res.bind_assoc {α β γ : Type} (x : Res α) (f : α → Res β) (g : β → Res γ) :
    (x >>= f >>= g) = (x >>= fun a => f a >>= g) := by cases x <;> rfl

theorem layout_join : ∀ (ws : List Str), (∀ w ∈ ws, w ≠ [] ∧ ∀ c ∈ w, isSpace c = false) → splitSt (joinTrim ws) = ws := by
  intro ws hws
  rcases List.eq_nil_or_concat ws with rfl | ⟨init, last, rfl⟩
  · rfl
  · rw [List.concat_eq_append] at *
    -- the text without the final blank
    have hsp : isSpace ' ' = true := by decide
    obtain ⟨hl, hlc⟩ := hws last (by simp)
    have hm : ((init ++ [last]).flatMap (fun v => v ++ (lit " "))) = [] ++ (init.flatMap (fun v => v ++ [' ']) ++ last) ++ [' '] := by
      simp [List.flatMap_append]
    have hfirst : ∃ c t, init.flatMap (fun v => v ++ [' ']) ++ last = c :: t ∧ isSpace c = false := by
      cases init with
      | nil =>
        obtain ⟨c, t, e⟩ := List.exists_cons_of_ne_nil hl
        exact ⟨c, t, by simp [e], hlc c (by simp [e])⟩
      | cons w init =>
        obtain ⟨hw, hwc⟩ := hws w (by simp)
        obtain ⟨c, t, e⟩ := List.exists_cons_of_ne_nil hw
        exact ⟨c, _, by simp [e]; rfl, hwc c (by simp [e])⟩
    have hlast : ∃ t c, init.flatMap (fun v => v ++ [' ']) ++ last = t ++ [c] ∧ isSpace c = false := by
      rcases List.eq_nil_or_concat last with e | ⟨t, c, e⟩
      · exact absurd e hl
      · rw [List.concat_eq_append] at e
        exact ⟨_, c, by rw [e, ← List.append_assoc], hlc c (by simp [e])⟩
    have ht : joinTrim (init ++ [last]) = init.flatMap (fun v => v ++ [' ']) ++ last := by
      unfold joinTrim
      rw [hm]
      exact C45_trim_unique (by simp) (by simp [show White ' ' = true from hsp]) (.inr ⟨hfirst, hlast⟩)
    rw [ht]
    apply Layout.split
    cases init with
    | nil =>
      refine ⟨[([], last)], [], by simp, by simp, ?_, by simp, by simp⟩
      intro p hp; simp at hp; subst hp; exact ⟨by simp, hl, hlc⟩
    | cons w init =>
      refine ⟨([], w) :: (init ++ [last]).map (fun v => ([' '], v)), [], ?_, by simp [Function.comp_def], ?_, ?_, by simp⟩
      · have : ∀ (w : Str) (l : List Str), (w :: l).flatMap (fun v => v ++ [' ']) ++ last =
            w ++ (l ++ [last]).flatMap (fun v => ' ' :: v) := by
          intro w l
          induction l generalizing w with
          | nil => simp
          | cons x l ih =>
            rw [List.flatMap_cons, List.append_assoc, ih x]
            simp
        rw [this]
        simp [List.flatMap_map]
      · intro p hp
        rcases List.mem_cons.1 hp with rfl | hp
        · exact ⟨by simp, hws w (by simp)⟩
        · obtain ⟨v, hv, rfl⟩ := List.mem_map.1 hp
          refine ⟨by simp [show White ' ' = true from hsp], hws v ?_⟩
          simp only [List.cons_append, List.mem_cons]
          exact .inr hv
      · intro p hp
        simp only [List.tail_cons] at hp
        obtain ⟨v, -, rfl⟩ := List.mem_map.1 hp
        simp

/-- The sister file found from the values of a file flag: the last of the allowed extensions for which the file next to
the last value exists. -/
def SisterFile (fs : FS) (al vs : List Str) (pick : Option Str) : Prop :=
  match vs.getLast? with
  | none => pick = none
  | some w => ∃ dir core ext, PathParts w dir core ext ∧
      pick = (al.filter (fun e => fs (dir ++ core ++ e))).getLast?.map (fun e => dir ++ core ++ e)

theorem PathParts.unique {w dir core ext dir' core' ext' : Str} (h : PathParts w dir core ext) (h' : PathParts w dir' core' ext') :
    dir = dir' ∧ core = core' ∧ ext = ext' := by
  have key : ∀ {a b a' b' : Str} {c : Char}, a ++ b = a' ++ b' → (∀ x ∈ b, x ≠ c) → (∀ x ∈ b', x ≠ c) →
      (a = [] ∨ ∃ d, a = d ++ [c]) → (a' = [] ∨ ∃ d, a' = d ++ [c]) → a = a' := by
    have half : ∀ {a b a' b' t : Str} {c : Char}, a' = a ++ t → b = t ++ b' → (∀ x ∈ b, x ≠ c) →
        (a' = [] ∨ ∃ d, a' = d ++ [c]) → a = a' := by
      intro a b a' b' t c h1 h2 h3 h4
      rcases List.eq_nil_or_concat t with rfl | ⟨t0, x, rfl⟩
      · simp at h1; exact h1.symm
      · rw [List.concat_eq_append] at *
        exfalso
        rcases h4 with rfl | ⟨d, rfl⟩
        · simp at h1
        · rw [← List.append_assoc] at h1
          have := List.append_inj_right' h1 rfl
          simp at this
          exact h3 x (by simp [h2]) this.symm
    intro a b a' b' c h hb hb' ha ha'
    rcases List.append_eq_append_iff.1 h with ⟨t, h1, h2⟩ | ⟨t, h1, h2⟩
    · exact half h1 h2 hb ha'
    · exact (half h1 h2 hb' ha).symm
  have e0 : dir ++ (core ++ ext) = dir' ++ (core' ++ ext') := by
    rw [← List.append_assoc, ← List.append_assoc, ← h.eq, ← h'.eq]
  have hd := key e0 h.no_sep h'.no_sep h.dir_ends h'.dir_ends
  subst hd
  have e1 := List.append_cancel_left e0
  refine ⟨rfl, ?_⟩
  rcases h.ext_dot with ⟨rfl, hn⟩ | ⟨e, rfl, he⟩ <;> rcases h'.ext_dot with ⟨rfl, hn'⟩ | ⟨e', rfl, he'⟩
  · simp at e1; exact ⟨e1, rfl⟩
  · exfalso; apply hn; simp at e1; rw [e1]; simp
  · exfalso; apply hn'; simp at e1; rw [← e1]; simp
  · have e2 : (core ++ ['.']) ++ e = (core' ++ ['.']) ++ e' := by simpa using e1
    have := key e2 (c := '.') (by rintro x hx rfl; exact he hx) (by rintro x hx rfl; exact he' hx) (.inr ⟨core, rfl⟩) (.inr ⟨core', rfl⟩)
    have hc := List.append_inj_left' this rfl
    subst hc
    simp at e1
    exact ⟨rfl, by rw [e1]⟩

theorem SisterFile.unique {fs : FS} {al vs : List Str} {a b : Option Str} (h : SisterFile fs al vs a) (h' : SisterFile fs al vs b) :
    a = b := by
  unfold SisterFile at h h'
  cases hl : vs.getLast? with
  | none => rw [hl] at h h'; simp only at h h'; rw [h, h']
  | some w =>
    rw [hl] at h h'; simp only at h h'
    obtain ⟨d, c, e, hp, rfl⟩ := h
    obtain ⟨d', c', e', hp', rfl⟩ := h'
    rw [(hp.unique hp').1, (hp.unique hp').2.1]

theorem pickSister_eq (P : Str → Bool) (paths : List Str) : ∀ (al : List Str) (k : Nat) (r : Option Str), k + al.length ≤ paths.length →
    ∃ r', pickSister paths k (al.map (fun e => if P e then lit "true" else lit "false")) r = .ok r' ∧
      ((∀ e ∈ al, P e = false) ∧ r' = r ∨ ∃ before e after x, al = before ++ e :: after ∧ P e = true ∧ (∀ e' ∈ after, P e' = false) ∧
        paths[k + before.length]? = some x ∧ r' = some x) := by
  intro al
  induction al with
  | nil => intro k r _; exact ⟨r, rfl, .inl ⟨by simp, rfl⟩⟩
  | cons a al ih =>
    intro k r hk
    simp only [List.length_cons] at hk
    simp only [List.map_cons, pickSister]
    have hne : (lit "false") ≠ (lit "true") := by decide
    by_cases hP : P a = true
    · simp only [hP, if_true]
      rw [List.getElem?_eq_getElem (by omega)]; simp only
      obtain ⟨r', e, h⟩ := ih (k + 1) (some paths[k]) (by omega)
      refine ⟨r', e, .inr ?_⟩
      rcases h with ⟨h1, h2⟩ | ⟨b, c, d, x, h1, h2, h3, h4, h5⟩
      · exact ⟨[], a, al, paths[k], rfl, hP, h1, by simp, h2⟩
      · refine ⟨a :: b, c, d, x, by simp [h1], h2, h3, ?_, h5⟩
        rw [← h4]; simp only [List.length_cons]; congr 1; omega
    · have hP' : P a = false := by simpa using hP
      simp only [hP', Bool.false_eq_true, if_false, if_neg hne]
      obtain ⟨r', e, h⟩ := ih (k + 1) r (by omega)
      refine ⟨r', e, ?_⟩
      rcases h with ⟨h1, h2⟩ | ⟨b, c, d, x, h1, h2, h3, h4, h5⟩
      · refine .inl ⟨?_, h2⟩
        intro y hy
        rcases List.mem_cons.1 hy with rfl | hy
        · exact hP'
        · exact h1 y hy
      · refine .inr ⟨a :: b, c, d, x, by simp [h1], h2, h3, ?_, h5⟩
        rw [← h4]; simp only [List.length_cons]; congr 1; omega

theorem layout_blank {a b : Str} {wa wb : List Str} (ha : Layout a wa) (hb : Layout b wb) : Layout (a ++ ' ' :: b) (wa ++ wb) := by
  obtain ⟨ps, tr, rfl, rfl, p1, p2, p3⟩ := ha.exists_pieces
  obtain ⟨qs, tr', rfl, rfl, q1, q2, q3⟩ := hb.exists_pieces
  have hsp : White ' ' = true := by decide
  cases qs with
  | nil =>
    refine ⟨ps, tr ++ ' ' :: tr', by simp, by simp, p1, p2, ?_⟩
    intro c hc
    simp only [List.mem_append, List.mem_cons] at hc
    rcases hc with hc | rfl | hc
    · exact p3 c hc
    · exact hsp
    · exact q3 c hc
  | cons q qs =>
    refine ⟨ps ++ (tr ++ ' ' :: q.1, q.2) :: qs, tr', by simp, by simp, ?_, ?_, q3⟩
    · intro p hp
      simp only [List.mem_append, List.mem_cons] at hp
      rcases hp with hp | rfl | hp
      · exact p1 p hp
      · obtain ⟨a1, a2⟩ := q1 q (by simp)
        refine ⟨?_, a2⟩
        intro c hc
        simp only [List.mem_append, List.mem_cons] at hc
        rcases hc with hc | rfl | hc
        · exact p3 c hc
        · exact hsp
        · exact a1 c hc
      · exact q1 p (by simp [hp])
    · intro p hp
      have : p ∈ ps.tail ∨ p = (tr ++ ' ' :: q.1, q.2) ∨ p ∈ qs := by
        cases ps with
        | nil => simp only [List.nil_append, List.tail_cons] at hp; exact .inr (.inr hp)
        | cons x ps => simpa using hp
      rcases this with h | rfl | h
      · exact p2 p h
      · simp
      · exact q2 p (by simpa using h)

/-- The words of several texts, a blank behind each. -/
theorem words_blanks : ∀ (ps : List Str), splitSt (ps.flatMap (fun p => p ++ [' '])) = ps.flatMap splitSt := by
  intro ps
  apply Layout.split
  induction ps with
  | nil => exact ⟨[], [], by simp, by simp, by simp, by simp, by simp⟩
  | cons p ps ih =>
    have := layout_blank (layout_splitSt p) ih
    simpa using this

theorem words_trimmed (s : Str) : splitSt (trimmed s) = splitSt s := by
  obtain ⟨l, r, e, hl, hr, -⟩ := C45_trim s
  obtain ⟨ps, tr, h1, h2, p1, p2, p3⟩ := (layout_splitSt (trimmed s)).exists_pieces
  have : Layout s (splitSt (trimmed s)) := by
    rw [h2]
    rw [h1] at e
    rw [e]
    cases ps with
    | nil =>
      refine ⟨[], l ++ tr ++ r, by simp, by simp, by simp, by simp, ?_⟩
      intro c hc
      simp only [List.mem_append] at hc
      rcases hc with (hc | hc) | hc
      · exact hl c hc
      · exact p3 c hc
      · exact hr c hc
    | cons p ps =>
      refine ⟨(l ++ p.1, p.2) :: ps, tr ++ r, by simp, by simp, ?_, p2, ?_⟩
      · intro q hq
        rcases List.mem_cons.1 hq with rfl | hq
        · obtain ⟨a1, a2⟩ := p1 p (by simp)
          refine ⟨?_, a2⟩
          intro c hc
          rcases List.mem_append.1 hc with hc | hc
          · exact hl c hc
          · exact a1 c hc
        · exact p1 q (by simp [hq])
      · intro c hc
        rcases List.mem_append.1 hc with hc | hc
        · exact p3 c hc
        · exact hr c hc
  exact this.split.symm

theorem words_joined (ps : List Str) : splitSt (joinTrim ps) = ps.flatMap splitSt := by
  unfold joinTrim
  rw [words_trimmed]
  exact words_blanks ps

theorem word_short {s w : Str} (h : w ∈ splitSt s) : w.length ≤ s.length := by
  obtain ⟨ps, tr, h1, h2, -⟩ := (layout_splitSt s).exists_pieces
  rw [h2] at h
  obtain ⟨p, hp, rfl⟩ := List.mem_map.1 h
  have : ∀ (ps : List (Str × Str)), p ∈ ps → p.2.length ≤ (ps.flatMap (fun p => p.1 ++ p.2)).length := by
    intro ps
    induction ps with
    | nil => intro h; cases h
    | cons q qs ih =>
      intro h
      simp only [List.flatMap_cons, List.length_append]
      rcases List.mem_cons.1 h with rfl | h
      · omega
      · have := ih h; omega
  have := this ps hp
  rw [h1, List.length_append]; omega

theorem words_some {s : Str} {c : Char} (h : c ∈ s) (hc : isSpace c = false) : 1 ≤ (splitSt s).length := by
  obtain ⟨ps, tr, h1, h2, -, -, h3⟩ := (layout_splitSt s).exists_pieces
  cases ps with
  | nil =>
    simp only [List.flatMap_nil, List.nil_append] at h1
    rw [h1] at h
    have := h3 c h
    rw [show White c = isSpace c from rfl, hc] at this; cases this
  | cons p ps => rw [h2]; simp

theorem flatMap_words_length : ∀ (ps : List Str), (∀ p ∈ ps, 1 ≤ (splitSt p).length) → ps.length ≤ (ps.flatMap splitSt).length := by
  intro ps
  induction ps with
  | nil => intro _; simp
  | cons p ps ih =>
    intro h
    have h1 := h p (by simp)
    have h2 := ih (fun q hq => h q (by simp [hq]))
    simp only [List.flatMap_cons, List.length_append, List.length_cons]; omega

theorem split_joined (dir core : Str) (al : List Str) :
    splitSt (joinTrim (al.map (fun e => dir ++ core ++ e))) = splitSt (al.flatMap (fun e => dir ++ core ++ e ++ [' '])) := by
  rw [words_joined, ← words_blanks, List.flatMap_map]

/-- The file next to another is unique. -/
theorem NextTo.unique {fs : FS} {al : List Str} {w : Option Str} {a b : Option Str} (h : NextTo fs al w a) (h' : NextTo fs al w b) : a = b := by
  unfold NextTo at h h'
  cases w with
  | none => simp only at h h'; rw [h, h']
  | some w =>
    simp only at h h'
    obtain ⟨d, c, e, ws, hp, hl, h⟩ := h
    obtain ⟨d', c', e', ws', hp', hl', h'⟩ := h'
    obtain ⟨rfl, rfl, rfl⟩ := hp.unique hp'
    have hw := hl.split.symm.trans hl'.split
    subst hw
    rcases h with ⟨h1, h2⟩ | ⟨b1, x1, a1, y1, e1, p1, n1, i1, r1⟩ <;> rcases h' with ⟨h1', h2'⟩ | ⟨b2, x2, a2, y2, e2, p2, n2, i2, r2⟩
    · rw [h2, h2']
    · rw [h1 x2 (by rw [e2]; simp)] at p2; cases p2
    · rw [h1' x1 (by rw [e1]; simp)] at p1; cases p1
    · have : b1.length = b2.length := by
        rw [e1] at e2
        rcases List.append_eq_append_iff.1 e2 with ⟨t, g1, g2⟩ | ⟨t, g1, g2⟩
        · cases t with
          | nil => rw [g1]; simp
          | cons z t =>
            simp only [List.cons_append, List.cons.injEq] at g2
            rw [n1 x2 (by rw [g2.2]; simp)] at p2; cases p2
        · cases t with
          | nil => rw [g1]; simp
          | cons z t =>
            simp only [List.cons_append, List.cons.injEq] at g2
            rw [n2 x1 (by rw [g2.2]; simp)] at p1; cases p1
      rw [this, i2] at i1
      rw [r1, r2]; exact i1.symm

theorem Takes.unique {fs : FS} {as : List Asg} {f g : Str} {al : List Str} {a b : Option Str} (h : Takes fs as f g al a) (h' : Takes fs as f g al b) :
    a = b := by
  by_cases hx : ∃ v ∈ given f as, fs v = true
  · rw [h.1 hx, h'.1 hx]
  · have : ∀ v ∈ given f as, fs v = false := by
      intro v hv
      cases e : fs v with
      | false => rfl
      | true => exact absurd ⟨v, hv, e⟩ hx
    exact (h.2 this).unique (h'.2 this)

/-- Without white space in the name, the last of the candidates that exist. -/
theorem NextTo.plain {fs : FS} {al vs : List Str} {r : Option Str} (h : NextTo fs al vs.getLast? r)
    (hsp : ∀ v ∈ vs, ∀ c ∈ v, isSpace c = false) (hal : ∀ e ∈ al, e ≠ [] ∧ ∀ c ∈ e, isSpace c = false) : SisterFile fs al vs r := by
  unfold NextTo at h
  unfold SisterFile
  cases hl : vs.getLast? with
  | none => rw [hl] at h; exact h
  | some w =>
    rw [hl] at h
    simp only at h ⊢
    obtain ⟨dir, core, ext, words, hp, hL, h⟩ := h
    refine ⟨dir, core, ext, hp, ?_⟩
    have hws : words = al.map (fun e => dir ++ core ++ e) := by
      rw [← hL.split, ← split_joined]
      apply layout_join
      intro x hx
      obtain ⟨e, he, rfl⟩ := List.mem_map.1 hx
      refine ⟨by simp [(hal e he).1], ?_⟩
      intro c hc
      rcases List.mem_append.1 hc with hc | hc
      · exact hsp w (List.mem_of_getLast? hl) c (by rw [hp.eq]; simp only [List.mem_append] at *; exact .inl hc)
      · exact (hal e he).2 c hc
    rcases h with ⟨h1, rfl⟩ | ⟨b, x, a, y, rfl, p, n, i, rfl⟩
    · rw [List.filter_eq_nil_iff.2 (fun e he => by rw [h1 e he]; simp)]; rfl
    · rw [List.filter_append, List.filter_cons, if_pos p, show a.filter (fun e => fs (dir ++ core ++ e)) = [] from
        List.filter_eq_nil_iff.2 (fun e he => by rw [n e he]; simp)]
      rw [hws] at i
      simp only [List.map_append, List.map_cons] at i
      rw [List.getElem?_append_right (by simp)] at i
      simp only [List.length_map, Nat.sub_self, List.getElem?_cons_zero, Option.some.injEq] at i
      simp [← i]

/-- No white space in the text. -/
def NoSpace (v : Str) : Prop := ∀ c ∈ v, isSpace c = false

theorem fileValue [Dbl D] {p : Parser D} (hc : Cfg p) {f : Str} (hf : f ∈ fileNames) {a : ArgObj Str D}
    (ha : p.fileArg.get f = some a) (hn : a.name = lit "ARGUMENT_FILE") (property option : Str) :
    getFlagArgOptValue p f (lit "ARGUMENT_FILE") property option = a.propertyValue property option := by
  have h1 : p.strArg.get f = none := by
    have : ∀ x ∈ fileNames, (calcStrArg (D := D)).get x = none := by
      simp only [fileNames, List.mem_cons, List.not_mem_nil, or_false]
      rintro x (rfl | rfl | rfl | rfl | rfl | rfl) <;> rfl
    rw [hc.strArg, this _ hf]
  have h2 : p.switchArg.get f = none := by
    have : ∀ x ∈ fileNames, (calcSwitchArg (D := D)).get x = none := by
      simp only [fileNames, List.mem_cons, List.not_mem_nil, or_false]
      rintro x (rfl | rfl | rfl | rfl | rfl | rfl) <;> rfl
    rw [hc.switchArg, this _ hf]
  unfold getFlagArgOptValue
  rw [h1, h2, ha]
  simp [Option.filter, hn]

theorem existValue [Dbl D] (exts : List Str) (e : Int) (sis : Map (List Str)) :
    (fileArgWith (D := D) exts e sis).propertyValue (lit "PROPERTY_FILE_EXIST") (lit "FILE_DOES_EXIST") = .ok (intToStr e) := rfl

theorem sisterExists [Dbl D] (exts : List Str) (e : Int) (al x y z w : List Str) :
    (fileArgWith (D := D) exts e (sisMap al x y z w)).propertyValue (lit "PROPERTY_SISTER_FILE") (lit "SISTER_FILE_EXISTS") =
      .ok (joinTrim x) := rfl

theorem sisterPaths [Dbl D] (exts : List Str) (e : Int) (al x y z w : List Str) :
    (fileArgWith (D := D) exts e (sisMap al x y z w)).propertyValue (lit "PROPERTY_SISTER_FILE") (lit "SISTER_FILE_PATH_NAME") =
      .ok (joinTrim w) := rfl

/-- One pass of the loop over the file flags. -/
theorem resolveStep_eq [Dbl D] {fs : FS} {exts al vs : List Str} {a : ArgObj Str D} {q : Parser D} (hc : Cfg q) {f : Str}
    (hf : f ∈ fileNames) (ha : q.fileArg.get f = some a) (hst : FileSt fs exts al vs a) (hstr : q.strs.get f = vs.getLast?)
    (hal : ∀ e ∈ al, e ≠ [] ∧ NoSpace e) :
    ∃ pick, NextTo fs al vs.getLast? pick ∧ ∀ g fa sa, resolveStep q (fa, sa) (f, g) =
      .ok ((match (if vs.any fs then vs.getLast? else none) with | none => fa | some x => fa.set f x),
        (match pick with | none => sa | some x => sa.set g x)) := by
  have hname : a.name = lit "ARGUMENT_FILE" := by obtain ⟨x, y, z, w, rfl⟩ := hst.isSis; rfl
  have hfv := fun property option => fileValue hc hf ha hname property option
  unfold resolveStep
  simp only [hfv]
  cases hst with
  | none =>
    refine ⟨none, rfl, ?_⟩
    intro g fa sa
    rfl
  | @some vs v dir core ext hp =>
    have h1 : splitSt (joinTrim (al.map (fun e => if fs (dir ++ core ++ e) then lit "true" else lit "false"))) =
        al.map (fun e => if fs (dir ++ core ++ e) then lit "true" else lit "false") := by
      apply layout_join
      intro w hw
      obtain ⟨e, -, rfl⟩ := List.mem_map.1 hw
      split
      · exact ⟨by decide, by decide⟩
      · exact ⟨by decide, by decide⟩
    have hlen : 0 + al.length ≤ (splitSt (joinTrim (al.map (fun e => dir ++ core ++ e)))).length := by
      rw [words_joined]
      have := flatMap_words_length (al.map (fun e => dir ++ core ++ e)) (by
        intro p hp
        obtain ⟨e, he, rfl⟩ := List.mem_map.1 hp
        obtain ⟨e1, e2⟩ := hal e he
        obtain ⟨c, t, rfl⟩ := List.exists_cons_of_ne_nil e1
        exact words_some (c := c) (by simp) (e2 c (by simp)))
      simpa using this
    obtain ⟨pick, h3, hpick⟩ := pickSister_eq (fun e => fs (dir ++ core ++ e)) (splitSt (joinTrim (al.map (fun e => dir ++ core ++ e)))) al 0 none hlen
    refine ⟨pick, ?_, ?_⟩
    · unfold NextTo
      simp only [List.getLast?_append, List.getLast?_singleton, Option.some_or]
      refine ⟨dir, core, ext, splitSt (joinTrim (al.map (fun e => dir ++ core ++ e))), hp, ?_, ?_⟩
      · rw [split_joined]; exact layout_splitSt _
      · simpa only [Nat.zero_add] using hpick
    · intro g fa sa
      have hgs : getStr q f = .ok v := by
        unfold getStr; rw [hstr]; simp
      simp only [sisOf, existValue, sisterExists, sisterPaths, Res.ok_bind, h1, h3, hgs]
      by_cases hany : (vs ++ [v]).any fs = true
      · simp only [hany, if_true]
        have : intToStr 1 = lit "1" := by decide
        rw [if_pos this]
        simp only [List.getLast?_append, List.getLast?_singleton, Option.some_or]
        cases pick <;> rfl
      · simp only [hany, Bool.false_eq_true, if_false]
        have : ¬ intToStr 0 = lit "1" := by decide
        rw [if_neg this]
        cases pick <;> rfl

theorem resolve_fold [Dbl D] {q : Parser D} (E S : Str → Option Str) : ∀ (L : List (Str × Str)),
    (∀ x ∈ L, ∀ fa sa, resolveStep q (fa, sa) x =
      .ok ((match E x.1 with | none => fa | some y => fa.set x.1 y), (match S x.1 with | none => sa | some y => sa.set x.2 y))) →
    (L.map (·.1)).Nodup → (L.map (·.2)).Nodup → ∀ fa sa, ∃ fa' sa', L.foldlM (resolveStep q) (fa, sa) = .ok (fa', sa') ∧
      (∀ x ∈ L, fa'.get x.1 = (E x.1).or (fa.get x.1) ∧ sa'.get x.2 = (S x.1).or (sa.get x.2)) ∧
      (∀ h, h ∉ L.map (·.1) → fa'.get h = fa.get h) ∧ (∀ h, h ∉ L.map (·.2) → sa'.get h = sa.get h) := by
  intro L
  induction L with
  | nil => intro _ _ _ fa sa; exact ⟨fa, sa, rfl, by simp, by simp, by simp⟩
  | cons x L ih =>
    intro h n1 n2 fa sa
    simp only [List.map_cons, List.nodup_cons] at n1 n2
    rw [List.foldlM_cons, h x (by simp)]
    simp only [Res.ok_bind]
    generalize hfa : (match E x.1 with | none => fa | some y => fa.set x.1 y) = fa1
    generalize hsa : (match S x.1 with | none => sa | some y => sa.set x.2 y) = sa1
    have f1 : fa1.get x.1 = (E x.1).or (fa.get x.1) := by subst hfa; cases E x.1 <;> simp
    have f2 : ∀ k, k ≠ x.1 → fa1.get k = fa.get k := by intro k hk; subst hfa; cases E x.1 <;> simp [hk]
    have s1 : sa1.get x.2 = (S x.1).or (sa.get x.2) := by subst hsa; cases S x.1 <;> simp
    have s2 : ∀ k, k ≠ x.2 → sa1.get k = sa.get k := by intro k hk; subst hsa; cases S x.1 <;> simp [hk]
    obtain ⟨fa', sa', e, g1, g2, g3⟩ := ih (fun y hy => h y (by simp [hy])) n1.2 n2.2 fa1 sa1
    refine ⟨fa', sa', e, ?_, ?_, ?_⟩
    · intro y hy
      rcases List.mem_cons.1 hy with rfl | hy
      · rw [g2 _ n1.1, g3 _ n2.1]; exact ⟨f1, s1⟩
      · have a1 : y.1 ≠ x.1 := by intro e; exact n1.1 (by rw [← e]; exact List.mem_map_of_mem hy)
        have a2 : y.2 ≠ x.2 := by intro e; exact n2.1 (by rw [← e]; exact List.mem_map_of_mem hy)
        obtain ⟨b1, b2⟩ := g1 y hy
        rw [b1, b2, f2 _ a1, s2 _ a2]; exact ⟨rfl, rfl⟩
    · intro k hk
      simp only [List.map_cons, List.mem_cons, not_or] at hk
      rw [g2 k hk.2, f2 k hk.1]
    · intro k hk
      simp only [List.map_cons, List.mem_cons, not_or] at hk
      rw [g3 k hk.2, s2 k hk.1]

/-- The file `prepareParameters` settles on for a flag with companion `g`. -/
def Chosen (fs : FS) (as : List Asg) (f g : Str) (al : List Str) (r : Option Str) : Prop :=
  if (given f as).any fs then r = (given f as).getLast? else SisterFile fs al (given g as) r

/-- Using the file settled on. -/
def useFile (ext : Str) : Option Str → Res Str
  | none => .throw .runtimeError
  | some x => if ext <:+ x then .ok x else .throw (if x.length < 4 then .outOfRange else .invalidArgument)

/-- Using an orbital number. -/
def useNum (typ : Str) (n : Int) : Res Int := if SignOk typ n then .ok n else .throw .invalidArgument

theorem checkExt_suffix {s ext : Str} (hs : Fits s) (he : ext.length = 4) :
    Params.checkExt s ext = if ext <:+ s then .ok () else .throw (if s.length < 4 then .outOfRange else .invalidArgument) := by
  have hiff : (∃ x, s = x ++ ext) ↔ ext <:+ s := ⟨fun ⟨x, h⟩ => ⟨x, h.symm⟩, fun ⟨x, h⟩ => ⟨x, h.symm⟩⟩
  have h := Params.checkExt_iff hs he
  rw [hiff] at h
  by_cases hx : ext <:+ s
  · rw [if_pos hx, h.1.2 hx]
  · rw [if_neg hx]
    unfold Params.checkExt
    by_cases hl : s.length < 4
    · rw [(C44_out_of_range s hs 4 (by omega) (by omega)).1, if_pos hl]; rfl
    · obtain ⟨a, b, -, -, e1, -, -, -, l1, e2, -, -⟩ := C44_in_range s hs 4 (by omega) (by omega)
      rw [e1, if_neg hl]; simp only [Res.ok_bind]
      rw [if_pos]
      rintro rfl
      exact hx ⟨b, e2⟩

theorem orbNumFor_eq (p : Parser D) (typ numFlag : Str) (n : Int) (h : p.ints.get numFlag = some n)
    (ht : typ = lit "HOMO" ∨ typ = lit "LUMO") :
    orbNumFor p typ numFlag = (useNum typ n >>= fun n => .ok (some n)) := by
  unfold orbNumFor useNum SignOk getInt
  rw [h]
  have hne : lit "LUMO" ≠ lit "HOMO" := by decide
  rcases ht with rfl | rfl
  · simp only [if_true, Res.ok_bind]
    by_cases hn : n > 0
    · rw [if_pos hn, if_neg (by simp; omega)]; rfl
    · rw [if_neg hn, if_pos (by refine ⟨fun _ => by omega, fun e => absurd e.symm hne⟩)]; rfl
  · simp only [if_neg hne, if_true, Res.ok_bind]
    by_cases hn : n < 0
    · rw [if_pos hn, if_neg (by simp; omega)]; rfl
    · rw [if_neg hn, if_pos (by refine ⟨fun e => absurd e hne, fun _ => by omega⟩)]; rfl

/-- The number of the orbital asked for. -/
def numOf (as : List Asg) (f : Str) : Int := ((given f as).getLast?.map intOf).getD 0
theorem given_ok {as : List Asg} (hk : ∀ f k v, Asg.value f k v ∈ as → ∃ s, (f, s, k) ∈ valueFlags) (hok : ∀ a ∈ as, a.Ok)
    {f s : Str} {k : Kind} (hf : (f, s, k) ∈ valueFlags) : ∀ v ∈ given f as, ValueOk k v := by
  induction as with
  | nil => intro v hv; cases hv
  | cons a as ih =>
    have ih := ih (fun f k v h => hk f k v (by simp [h])) (fun a ha => hok a (by simp [ha]))
    intro v hv
    cases a with
    | switch g => exact ih v hv
    | value g k' w =>
      simp only [given] at hv
      split at hv
      · rename_i e
        subst e
        rcases List.mem_cons.1 hv with rfl | hv
        · obtain ⟨s', hs'⟩ := hk _ _ _ (List.mem_cons_self ..)
          have := kind_unique _ hs' _ hf rfl
          simp only at this
          subst this
          exact hok _ (List.mem_cons_self ..)
        · exact ih v hv
      · exact ih v hv

theorem Reads.kinds {args : List Str} {as : List Asg} (h : Reads args as) :
    ∀ f k v, Asg.value f k v ∈ as → ∃ s, (f, s, k) ∈ valueFlags := by
  induction h with
  | nil => intro f k v h; cases h
  | info _ _ ih => exact ih
  | value h _ _ ih =>
    intro f k v hm
    rcases List.mem_cons.1 hm with e | hm
    · cases e; exact ⟨_, h⟩
    · exact ih f k v hm
  | switch _ _ _ ih =>
    intro f k v hm
    rcases List.mem_cons.1 hm with e | hm
    · cases e
    · exact ih f k v hm

theorem given_mem {args : List Str} {as : List Asg} (h : Reads args as) {f v : Str} (hv : v ∈ given f as) : v ∈ args := by
  induction h with
  | nil => cases hv
  | info _ _ ih => exact List.mem_cons_of_mem _ (ih hv)
  | value h _ _ ih =>
    simp only [given] at hv
    split at hv
    · rcases List.mem_cons.1 hv with rfl | hv
      · simp
      · have := ih hv; simp [this]
    · have := ih hv; simp [this]
  | switch _ _ _ ih => exact List.mem_cons_of_mem _ (ih hv)

theorem NextTo.fits {fs : FS} {al : List Str} {w : Option Str} {y : Str} (h : NextTo fs al w (some y)) (hw : ∀ v, w = some v → v.length + 4 < 2 ^ 63)
    (hal : ∀ e ∈ al, e.length ≤ 4) : Fits y := by
  unfold NextTo at h
  cases w with
  | none => cases h
  | some w =>
    simp only at h
    obtain ⟨dir, core, ext, words, hp, hL, h⟩ := h
    rcases h with ⟨-, h⟩ | ⟨b, x, a, z, -, -, -, i, r⟩
    · cases h
    · cases r
      have hm : y ∈ words := List.mem_of_getElem? i
      rw [← hL.split, ← split_joined, words_joined] at hm
      obtain ⟨p, hp1, hp2⟩ := List.mem_flatMap.1 hm
      obtain ⟨e, he, rfl⟩ := List.mem_map.1 hp1
      have h1 := word_short hp2
      have h2 := hal e he
      have h3 := hw w rfl
      rw [hp.eq] at h3
      simp only [Fits, List.length_append] at *
      omega

/-- What `prepareParameters` computes from an accepted command line. -/
theorem prepare_any [Dbl D] {fs : FS} {as : List Asg} {q : Parser D} (h : After fs as q)
    (hfit : ∀ f ∈ fileNames, ∀ v ∈ given f as, v.length + 4 < 2 ^ 63)
    (htype : ∀ f, f = lit "--orbital_type_1" ∨ f = lit "--orbital_type_2" → askedType as f = lit "HOMO" ∨ askedType as f = lit "LUMO") :
    ∃ r : Str → Option Str, (∀ x ∈ inputFiles, Takes fs as x.1 x.2.1 x.2.2 (r x.1)) ∧
    prepareParameters q = (do
      let pP ← useFile (lit ".pun") (r (lit "--pun_P"))
      let p1 ← useFile (lit ".pun") (r (lit "--pun_1"))
      let p2 ← useFile (lit ".pun") (r (lit "--pun_2"))
      let lP ← useFile (lit ".log") (r (lit "--log_P"))
      let l1 ← useFile (lit ".log") (r (lit "--log_1"))
      let l2 ← useFile (lit ".log") (r (lit "--log_2"))
      let n1 ← useNum (askedType as (lit "--orbital_type_1")) (numOf as (lit "--orbital_num_1"))
      let n2 ← useNum (askedType as (lit "--orbital_type_2")) (numOf as (lit "--orbital_num_2"))
      .ok { log1 := l1, log2 := l2, logP := lP, pun1 := p1, pun2 := p2, punP := pP,
            spinP := askedSpin as (lit "--spin_P"), spin1 := askedSpin as (lit "--spin_1"), spin2 := askedSpin as (lit "--spin_2"),
            orbTypeP := [], orbType1 := askedType as (lit "--orbital_type_1"), orbType2 := askedType as (lit "--orbital_type_2"),
            orbNumP := 0, orbNum1 := n1, orbNum2 := n2, citation := some (turnedOn (lit "--citation") as),
            counterPoise := turnedOn (lit "--counter_poise") as }) := by
  -- the loop over the file flags
  have hsisE : ∀ e ∈ punSis ++ logSis, e ≠ [] ∧ NoSpace e := by
    have : ∀ e ∈ punSis ++ logSis, e ≠ [] ∧ ∀ c ∈ e, isSpace c = false := by decide
    exact this
  have hstep : ∀ x ∈ fileFlags, ∃ pick, NextTo fs (if x.1 ∈ [lit "--pun_P", lit "--pun_1", lit "--pun_2"] then punSis else logSis)
      (given x.1 as).getLast? pick ∧ ∀ fa sa, resolveStep q (fa, sa) x =
      .ok ((match (if (given x.1 as).any fs then (given x.1 as).getLast? else none) with | none => fa | some y => fa.set x.1 y),
        (match pick with | none => sa | some y => sa.set x.2 y)) := by
    intro x hx
    have hpun : ∀ f s, (f, s, Kind.pun) ∈ valueFlags → f ∈ fileNames → ∃ pick, NextTo fs punSis (given f as).getLast? pick ∧
        ∀ g fa sa, resolveStep q (fa, sa) (f, g) =
      .ok ((match (if (given f as).any fs then (given f as).getLast? else none) with | none => fa | some y => fa.set f y),
        (match pick with | none => sa | some y => sa.set g y)) := by
      intro f s hf hfn
      obtain ⟨a, ha, hst⟩ := h.pun f s hf
      exact resolveStep_eq h.toCfg hfn ha hst (h.fileStr f hfn) (fun e he => hsisE e (by simp [he]))
    have hlog : ∀ f s, (f, s, Kind.log) ∈ valueFlags → f ∈ fileNames → ∃ pick, NextTo fs logSis (given f as).getLast? pick ∧
        ∀ g fa sa, resolveStep q (fa, sa) (f, g) =
      .ok ((match (if (given f as).any fs then (given f as).getLast? else none) with | none => fa | some y => fa.set f y),
        (match pick with | none => sa | some y => sa.set g y)) := by
      intro f s hf hfn
      obtain ⟨a, ha, hst⟩ := h.log f s hf
      exact resolveStep_eq h.toCfg hfn ha hst (h.fileStr f hfn) (fun e he => hsisE e (by simp [he]))
    simp only [fileFlags, List.mem_cons, List.not_mem_nil, or_false] at hx
    rcases hx with rfl | rfl | rfl | rfl | rfl | rfl
    · obtain ⟨pick, h1, h2⟩ := hpun (lit "--pun_P") (lit "-p_P") (by decide) (by decide); exact ⟨pick, h1, h2 _⟩
    · obtain ⟨pick, h1, h2⟩ := hpun (lit "--pun_1") (lit "-p_1") (by decide) (by decide); exact ⟨pick, h1, h2 _⟩
    · obtain ⟨pick, h1, h2⟩ := hpun (lit "--pun_2") (lit "-p_2") (by decide) (by decide); exact ⟨pick, h1, h2 _⟩
    · obtain ⟨pick, h1, h2⟩ := hlog (lit "--log_P") (lit "-l_P") (by decide) (by decide); exact ⟨pick, h1, h2 _⟩
    · obtain ⟨pick, h1, h2⟩ := hlog (lit "--log_1") (lit "-l_1") (by decide) (by decide); exact ⟨pick, h1, h2 _⟩
    · obtain ⟨pick, h1, h2⟩ := hlog (lit "--log_2") (lit "-l_2") (by decide) (by decide); exact ⟨pick, h1, h2 _⟩
  have hS : ∃ S : Str → Option Str, ∀ x ∈ fileFlags,
      NextTo fs (if x.1 ∈ [lit "--pun_P", lit "--pun_1", lit "--pun_2"] then punSis else logSis) (given x.1 as).getLast? (S x.1) ∧
      ∀ fa sa, resolveStep q (fa, sa) x =
      .ok ((match (if (given x.1 as).any fs then (given x.1 as).getLast? else none) with | none => fa | some y => fa.set x.1 y),
        (match S x.1 with | none => sa | some y => sa.set x.2 y)) := by
    classical
    have huniq : ∀ x ∈ fileFlags, ∀ y ∈ fileFlags, x.1 = y.1 → x = y := by decide
    refine ⟨fun f => if hx : ∃ x ∈ fileFlags, x.1 = f then (hstep hx.choose hx.choose_spec.1).choose else none, ?_⟩
    intro x hx
    have hex : ∃ y ∈ fileFlags, y.1 = x.1 := ⟨x, hx, rfl⟩
    have e := huniq _ hex.choose_spec.1 _ hx hex.choose_spec.2
    have hsp := (hstep hex.choose hex.choose_spec.1).choose_spec
    simp only [dif_pos hex]
    generalize hc : (hstep hex.choose hex.choose_spec.1).choose = c at *
    rw [e] at hsp
    exact hsp
  obtain ⟨S, hS⟩ := hS
  obtain ⟨fa, sa, e1, e2, -, -⟩ := resolve_fold (q := q) (fun f => if (given f as).any fs then (given f as).getLast? else none) S fileFlags
    (fun x hx => (hS x hx).2) (by decide) (by decide) [] []
  let r : Str → Option Str := fun f => (fa.get f).or (sa.get f)
  have hchosen : ∀ x ∈ inputFiles, Takes fs as x.1 x.2.1 x.2.2 (r x.1) := by
    intro x hx
    have hk : ∀ x ∈ inputFiles, (x.1, x.2.1) ∈ fileFlags ∧ (x.2.1, x.1) ∈ fileFlags ∧
      (if x.2.1 ∈ [lit "--pun_P", lit "--pun_1", lit "--pun_2"] then punSis else logSis) = x.2.2 := by decide
    obtain ⟨k1, k2, k3⟩ := hk x hx
    have f1 := (e2 _ k1).1
    have f2 := (e2 _ k2).2
    have f3 := (hS _ k2).1
    simp only [Map.get, Option.or_none] at f1 f2
    simp only at f3
    rw [k3] at f3
    have hr : r x.1 = (if (given x.1 as).any fs then (given x.1 as).getLast? else none).or (S x.2.1) := by
      show (fa.get x.1).or (sa.get x.1) = _
      rw [f1, f2]
    rw [hr]
    refine ⟨?_, ?_⟩
    · rintro ⟨v, hv, hvx⟩
      have hany : (given x.1 as).any fs = true := List.any_eq_true.2 ⟨v, hv, hvx⟩
      rw [if_pos hany]
      have : (given x.1 as).getLast? ≠ none := by
        intro hn
        rw [List.getLast?_eq_none_iff] at hn
        rw [hn] at hany; simp at hany
      cases hg : (given x.1 as).getLast? with
      | none => exact absurd hg this
      | some y => rfl
    · intro hno
      have hany : (given x.1 as).any fs = false := List.any_eq_false.2 (fun v hv => by rw [hno v hv]; simp)
      rw [hany]
      exact f3
  have hfileFor : ∀ f, fileFor fa sa f = (match r f with | some y => Res.ok y | none => Res.throw .runtimeError) := by
    intro f
    show _ = (match (fa.get f).or (sa.get f) with | some y => Res.ok y | none => Res.throw .runtimeError)
    unfold fileFor
    cases fa.get f <;> cases sa.get f <;> rfl
  have hfits : ∀ x ∈ inputFiles, ∀ y, r x.1 = some y → Fits y := by
    intro x hx y hy
    have hk : ∀ x ∈ inputFiles, x.1 ∈ fileNames ∧ x.2.1 ∈ fileNames ∧ ∀ e ∈ x.2.2, e.length ≤ 4 := by decide
    obtain ⟨k1, k2, k3⟩ := hk x hx
    have hc := hchosen x hx
    by_cases hx' : ∃ v ∈ given x.1 as, fs v = true
    · have := hfit x.1 k1 y (List.mem_of_getLast? (by rw [← hc.1 hx', hy]))
      unfold Fits; omega
    · have hno : ∀ v ∈ given x.1 as, fs v = false := by
        intro v hv
        cases e : fs v with
        | false => rfl
        | true => exact absurd ⟨v, hv, e⟩ hx'
      have hc := hc.2 hno
      rw [hy] at hc
      exact NextTo.fits hc (fun w hw => hfit x.2.1 k2 w (List.mem_of_getLast? hw)) k3
  have huse : ∀ {β : Type} (x : Str × Str × List Str) (ext : Str) (k : Str → Res β), x ∈ inputFiles → ext.length = 4 →
      (fileFor fa sa x.1 >>= fun f => Params.checkExt f ext >>= fun _ => k f) = (useFile ext (r x.1) >>= k) := by
    intro β x ext k hx he
    rw [hfileFor]
    cases hr : r x.1 with
    | none => rfl
    | some y =>
      simp only [Res.ok_bind, checkExt_suffix (hfits x hx y hr) he, useFile]
      split <;> rfl
  refine ⟨r, hchosen, ?_⟩
  have m1 : (lit "--pun_P", lit "--log_P", [lit ".orb", lit ".7", lit ".pun"]) ∈ inputFiles := by decide
  have m2 : (lit "--pun_1", lit "--log_1", [lit ".orb", lit ".7", lit ".pun"]) ∈ inputFiles := by decide
  have m3 : (lit "--pun_2", lit "--log_2", [lit ".orb", lit ".7", lit ".pun"]) ∈ inputFiles := by decide
  have m4 : (lit "--log_P", lit "--pun_P", [lit ".log"]) ∈ inputFiles := by decide
  have m5 : (lit "--log_1", lit "--pun_1", [lit ".log"]) ∈ inputFiles := by decide
  have m6 : (lit "--log_2", lit "--pun_2", [lit ".log"]) ∈ inputFiles := by decide
  have s1 := h.spin (lit "--spin_P") (lit "-s_P") (by decide)
  have s2 := h.spin (lit "--spin_1") (lit "-s_1") (by decide)
  have s3 := h.spin (lit "--spin_2") (lit "-s_2") (by decide)
  have t1 := h.otype (lit "--orbital_type_1") (lit "-orb_ty_1") (by decide)
  have t2 := h.otype (lit "--orbital_type_2") (lit "-orb_ty_2") (by decide)
  have n1 := h.onum (lit "--orbital_num_1") (lit "-orb_num_1") (by decide)
  have n2 := h.onum (lit "--orbital_num_2") (lit "-orb_num_2") (by decide)
  have hsw : ∀ f ∈ [lit "--counter_poise", lit "--citation", lit "--version"],
      getInt q f = .ok (if turnedOn f as then 1 else 0) := by
    intro f hf
    have a1 := h.switchStr f hf
    have a2 := h.switchInt f hf
    have a3 : q.switchArg.get f = some newArgumentSwitch := by
      rw [h.switchArg]
      simp only [List.mem_cons, List.not_mem_nil, or_false] at hf
      rcases hf with rfl | rfl | rfl <;> rfl
    unfold getInt
    cases ht : turnedOn f as with
    | true => rw [a2, ht]; rfl
    | false => rw [a2, ht, a3, a1]; rfl
  have c1 := hsw (lit "--counter_poise") (by decide)
  have c2 := hsw (lit "--citation") (by decide)
  have gs : ∀ f v, q.strs.get f = some v → getStr q f = .ok v := by intro f v hv; unfold getStr; rw [hv]
  have o1 := orbNumFor_eq q (askedType as (lit "--orbital_type_1")) (lit "--orbital_num_1") _ n1 (htype _ (.inl rfl))
  have o2 := orbNumFor_eq q (askedType as (lit "--orbital_type_2")) (lit "--orbital_num_2") _ n2 (htype _ (.inr rfl))
  unfold prepareParameters
  rw [e1]
  simp only [Res.ok_bind, Params.setPunP, Params.setPun1, Params.setPun2, Params.setLogP, Params.setLog1, Params.setLog2, Res.bind_assoc]
  have u1 := fun {β : Type} (k : Str → Res β) => huse _ (lit ".pun") k m1 rfl
  have u2 := fun {β : Type} (k : Str → Res β) => huse _ (lit ".pun") k m2 rfl
  have u3 := fun {β : Type} (k : Str → Res β) => huse _ (lit ".pun") k m3 rfl
  have u4 := fun {β : Type} (k : Str → Res β) => huse _ (lit ".log") k m4 rfl
  have u5 := fun {β : Type} (k : Str → Res β) => huse _ (lit ".log") k m5 rfl
  have u6 := fun {β : Type} (k : Str → Res β) => huse _ (lit ".log") k m6 rfl
  rw [u1]; congr 1; funext pP
  rw [u2]; congr 1; funext p1
  rw [u3]; congr 1; funext p2
  rw [u4]; congr 1; funext lP
  rw [u5]; congr 1; funext l1
  rw [u6]; congr 1; funext l2
  rw [gs _ _ s1, gs _ _ s2, gs _ _ s3, gs _ _ t1, gs _ _ t2, c1, c2]
  simp only [Res.ok_bind]
  have o1' : orbNumFor q ((given (lit "--orbital_type_1") as).getLast?.getD (lit "HOMO")) (lit "--orbital_num_1") = _ := o1
  have o2' : orbNumFor q ((given (lit "--orbital_type_2") as).getLast?.getD (lit "HOMO")) (lit "--orbital_num_2") = _ := o2
  rw [o1']
  simp only [Res.bind_assoc]
  congr 1; funext n1
  simp only [Res.ok_bind]
  rw [o2']
  simp only [Res.bind_assoc]
  congr 1; funext n2
  simp only [Res.ok_bind]
  cases turnedOn (lit "--citation") as <;> cases turnedOn (lit "--counter_poise") as <;> rfl

/-- What `prepareParameters` computes from an accepted command line without white space in the file names. -/
theorem prepare_eq [Dbl D] {fs : FS} {as : List Asg} {q : Parser D} (h : After fs as q)
    (hfit : ∀ f ∈ fileNames, ∀ v ∈ given f as, v.length + 4 < 2 ^ 63)
    (hsp : ∀ f ∈ fileNames, ∀ v ∈ given f as, NoSpace v)
    (htype : ∀ f, f = lit "--orbital_type_1" ∨ f = lit "--orbital_type_2" → askedType as f = lit "HOMO" ∨ askedType as f = lit "LUMO") :
    ∃ r : Str → Option Str, (∀ x ∈ inputFiles, Chosen fs as x.1 x.2.1 x.2.2 (r x.1)) ∧
    prepareParameters q = (do
      let pP ← useFile (lit ".pun") (r (lit "--pun_P"))
      let p1 ← useFile (lit ".pun") (r (lit "--pun_1"))
      let p2 ← useFile (lit ".pun") (r (lit "--pun_2"))
      let lP ← useFile (lit ".log") (r (lit "--log_P"))
      let l1 ← useFile (lit ".log") (r (lit "--log_1"))
      let l2 ← useFile (lit ".log") (r (lit "--log_2"))
      let n1 ← useNum (askedType as (lit "--orbital_type_1")) (numOf as (lit "--orbital_num_1"))
      let n2 ← useNum (askedType as (lit "--orbital_type_2")) (numOf as (lit "--orbital_num_2"))
      .ok { log1 := l1, log2 := l2, logP := lP, pun1 := p1, pun2 := p2, punP := pP,
            spinP := askedSpin as (lit "--spin_P"), spin1 := askedSpin as (lit "--spin_1"), spin2 := askedSpin as (lit "--spin_2"),
            orbTypeP := [], orbType1 := askedType as (lit "--orbital_type_1"), orbType2 := askedType as (lit "--orbital_type_2"),
            orbNumP := 0, orbNum1 := n1, orbNum2 := n2, citation := some (turnedOn (lit "--citation") as),
            counterPoise := turnedOn (lit "--counter_poise") as }) := by
  obtain ⟨r, h1, h2⟩ := prepare_any h hfit htype
  refine ⟨r, fun x hx => ?_, h2⟩
  have hk : ∀ x ∈ inputFiles, x.2.1 ∈ fileNames ∧ ∀ e ∈ x.2.2, e ≠ [] ∧ ∀ c ∈ e, isSpace c = false := by decide
  obtain ⟨k1, k2⟩ := hk x hx
  obtain ⟨a1, a2⟩ := h1 x hx
  unfold Chosen
  split
  · rename_i hany
    obtain ⟨v, hv, e⟩ := List.any_eq_true.1 hany
    exact a1 ⟨v, hv, e⟩
  · rename_i hany
    refine (a2 ?_).plain (hsp _ k1) k2
    intro v hv
    cases e : fs v with
    | false => rfl
    | true => exact absurd (List.any_eq_true.2 ⟨v, hv, e⟩) hany

end
end Verif.Args
