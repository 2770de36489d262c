import Verif.HangLemmas
import Verif.Props.Parameters
import Verif.ConcreteNum
import Verif.Props.Strings
/-
Properties C68-C70: which section reader runs, termination of reading, names of files.
-/
namespace Verif.Readers
open Strings Log

/-! ### C68 -/

section
variable {σ : Type}

/-- The file system in which the file `name` holds `text`. -/
def holding (name text : Str) : Str → Option Str := fun n => if n = name then some text else none

/-- Two reading runs end the same way. -/
def SameEnd {β : Type} (f g : Nat → Res β) : Prop := ∀ out, Ends f out ↔ Ends g out

private theorem same_of_succ {β : Type} {f g : Nat → Res β} (h : ∀ fuel, f (fuel + 1) = g fuel) : SameEnd f g := by
  intro out
  constructor
  · rintro ⟨h0, N, hN⟩
    exact ⟨h0, N, fun fuel hf => by rw [← h]; exact hN _ (by omega)⟩
  · exact fun hg => hg.succ h

private theorem read_holding (s : Sections σ) (name text : Str) (d : σ) :
    (fun fuel => read s (holding name text) name fuel d) = runFrom s text d := by
  funext fuel
  exact read_eq s _ name text (by simp [holding]) fuel d

/-- A map lists its keys in increasing order. -/
def Sorted {V : Type} (m : Map V) : Prop := m.Pairwise (fun a b => strLt a.1 b.1 = true)

/-- C68 (skipping): a line that contains none of the registered patterns makes no difference. -/
theorem C68_other_lines_skipped (s : Sections σ) (name l rest : Str) (d : σ) (hl : IsLine l)
    (h : ∀ tag ps, (tag, ps) ∈ s.headers → ∀ p ∈ ps, ¬ Contains l p) :
    SameEnd (fun n => read s (holding name (l ++ '\n' :: rest)) name n d) (fun n => read s (holding name rest) name n d) := by
  rw [read_holding, read_holding]
  exact same_of_succ (fun fuel => runFrom_boring s hl (startSection_none (fun th hth p hp => h th.1 th.2 hth p hp)) rest d fuel)

theorem startSection_first {headers : Map (List Str)} (hsort : Sorted headers) {line tag : Str} {ps : List Str}
    (hm : (tag, ps) ∈ headers) (hp : ∃ p ∈ ps, Contains line p)
    (hmin : ∀ tag' ps', (tag', ps') ∈ headers → strLt tag' tag = true → ∀ p ∈ ps', ¬ Contains line p) :
    startSection headers line = tag := by
  unfold startSection
  induction headers with
  | nil => cases hm
  | cons th headers ih =>
    obtain ⟨hlt, hsort'⟩ := List.pairwise_cons.1 hsort
    rcases List.mem_cons.1 hm with rfl | hm
    · obtain ⟨p, hp, hc⟩ := hp
      rw [List.find?_cons_of_pos]
      simp only [List.any_eq_true]
      exact ⟨p, hp, found_contains.2 hc⟩
    · rw [List.find?_cons_of_neg]
      · exact ih hsort' hm (fun tag' ps' h => hmin tag' ps' (by simp [h]))
      · simp only [List.any_eq_true, not_exists, not_and]
        intro p hp hf
        exact hmin th.1 th.2 (by simp) (hlt _ hm) p hp (found_contains.1 hf)

/-- C68 (dispatch): a line that contains a pattern of `tag`, and none of a lexically smaller tag, makes the reader `f` of `tag`
run, with the stream at the start of the next line. If `f` returns with the stream at the start of `rest'`, reading goes on there
with what `f` has stored; if `f` returns with an exhausted stream, reading is complete; if `f` throws, so does reading; if `f`
never ends, neither does reading. -/
theorem C68_dispatch (s : Sections σ) (hsort : Sorted s.headers) (name l rest : Str) (d : σ) (hl : IsLine l) (tag : Str)
    (ps : List Str) (f : SectionReader σ) (hm : (tag, ps) ∈ s.headers) (hne : tag ≠ []) (hp : ∃ p ∈ ps, Contains l p)
    (hmin : ∀ tag' ps', (tag', ps') ∈ s.headers → strLt tag' tag = true → ∀ p ∈ ps', ¬ Contains l p)
    (hf : s.readers.get tag = some f) :
    let run := fun n => read s (holding name (l ++ '\n' :: rest)) name n d
    let sec := fun n => f n ⟨openText rest, some (l ++ '\n' :: rest), d⟩
    (∀ rest' pos d', Ends sec (.ok ⟨openText rest', pos, d'⟩) → ∀ out, Ends (fun n => read s (holding name rest') name n d') out →
      Ends run out) ∧
    (∀ r, Ends sec (.ok r) → r.fid.eof = true ∨ r.fid.fail = true → Ends run (.ok r.data)) ∧
    (∀ e, Ends sec (.throw e) → Ends run (.throw e)) ∧
    (Hangs sec → Hangs run) := by
  have ht := startSection_first hsort hm hp hmin
  simp only []
  rw [read_holding]
  refine ⟨fun rest' pos d' h1 out h2 => ?_, ?_, fun e h => run_section_throw s hl ht hne hf h, fun h => hang_section s hl ht hne hf h⟩
  · rw [read_holding] at h2
    exact run_section s hl ht hne hf h1 h2
  · rintro ⟨fid, pos, d'⟩ h1 h2
    exact run_section_bad s hl ht hne hf h1 h2

theorem get_isSome {V : Type} (m : Map V) (k : Str) : (m.get k).isSome = true ↔ k ∈ m.map (·.1) := by
  induction m with
  | nil => simp
  | cons p m ih =>
    obtain ⟨k', v⟩ := p
    by_cases h : k = k'
    · simp [Map.get, h]
    · simp only [Map.get, h, if_false, List.map_cons, List.mem_cons, false_or]; exact ih

/-- C68 (registration): the registered sections are accepted iff the tags with a header are those with a reader; otherwise a
`runtime_error` is thrown. -/
theorem C68_registration (s : Sections σ) :
    ((∀ tag, tag ∈ s.headers.map (·.1) ↔ tag ∈ s.readers.map (·.1)) → checkSections s = .ok ()) ∧
    ((¬ ∀ tag, tag ∈ s.headers.map (·.1) ↔ tag ∈ s.readers.map (·.1)) → checkSections s = .throw .runtimeError) := by
  have key : (strSet (s.headers.map (·.1) ++ s.readers.map (·.1))).any
      (fun t => (s.readers.get t).isNone || (s.headers.get t).isNone) = true ↔
      ¬ ∀ tag, tag ∈ s.headers.map (·.1) ↔ tag ∈ s.readers.map (·.1) := by
    rw [List.any_eq_true]
    constructor
    · rintro ⟨t, ht, hn⟩ hall
      rw [mem_strSet, List.mem_append] at ht
      have h1 : t ∈ s.headers.map (·.1) := ht.elim id (hall t).2
      have h2 : t ∈ s.readers.map (·.1) := ht.elim (hall t).1 id
      rw [← get_isSome] at h1 h2
      simp only [Bool.or_eq_true, Option.isNone_iff_eq_none] at hn
      rcases hn with hn | hn
      · rw [hn] at h2; cases h2
      · rw [hn] at h1; cases h1
    · intro hnot
      obtain ⟨t, ht⟩ := Classical.not_forall.1 hnot
      by_cases h1 : t ∈ s.headers.map (·.1)
      · have h2 : t ∉ s.readers.map (·.1) := fun h => ht ⟨fun _ => h, fun _ => h1⟩
        refine ⟨t, mem_strSet.2 (List.mem_append.2 (.inl h1)), ?_⟩
        rw [← get_isSome] at h2
        cases hg : s.readers.get t with
        | none => rfl
        | some v => rw [hg] at h2; simp at h2
      · have h2 : t ∈ s.readers.map (·.1) := Classical.byContradiction fun h => ht ⟨fun h' => absurd h' h1, fun h' => absurd h' h⟩
        refine ⟨t, mem_strSet.2 (List.mem_append.2 (.inr h2)), ?_⟩
        rw [← get_isSome] at h1
        cases hg : s.headers.get t with
        | none => simp
        | some v => rw [hg] at h1; simp at h1
  unfold checkSections
  simp only []
  constructor
  · intro h
    rw [if_neg (by rw [key]; simpa using h)]
  · intro h
    rw [if_pos (key.2 h)]

end

variable {α : Type} [Mul α] [Num α] [Zero α]

/-- C68 (the two readers): both register their sections consistently, and in increasing order of the tags. -/
theorem C68_log_and_pun : checkSections (logSections (α := α)) = .ok () ∧ Sorted (logSections (α := α)).headers ∧
    checkSections (punSections (α := α)) = .ok () ∧ Sorted (punSections (α := α)).headers := by
  refine ⟨(C68_registration _).1 ?_, ?_, (C68_registration _).1 ?_, ?_⟩
  · intro tag; rfl
  · rw [headers_eq]; unfold Sorted; decide
  · intro tag; rfl
  · show Sorted [((lit "CoefAlpha"), [(lit " 1 Alpha MO ")]), ((lit "CoefBeta"), [(lit " 1 Beta MO ")])]
    unfold Sorted; decide

/-- The hypotheses of `C68_dispatch` are met by an energy line of a log file; two tags match this one, the smaller wins. -/
example : startSection (logSections (α := α)).headers (lit " *** Overlap *** Center     Atomic     Atomic") = (lit "Coord") := by
  rw [headers_eq]; decide +revert

/-! ### C70 -/

theorem fileExt_spec (ext : Str) (e0 : Str) (he : ext = '.' :: e0) (hd : '/' ∉ ext) (hs : ∀ c ∈ ext, White c = false)
    (name : Str) (hfit : Fits name) :
    (PlainName ext name → fileExt name = .ok ext) ∧ (fileExt name = .ok ext → PlainName ext name) ∧
      (fileExt name = .throw .invalidArgument ∨ ∃ e, fileExt name = .ok e) := by
  obtain ⟨d, f, -, h1, h2, h3, h4⟩ := C43_path name
  obtain ⟨l, r, t1, t2, t3, t4⟩ := C45_trim f
  have hfitt : Fits (trimmed f) := by
    unfold Fits at hfit ⊢
    have e1 := congrArg List.length h2
    have e2 := congrArg List.length t1
    simp only [List.length_append] at e1 e2
    omega
  -- what `fileExt` does
  have ext_some : ∀ x y, trimmed f = x ++ '.' :: y → '.' ∉ x → fileExt name = .ok ('.' :: y) := by
    intro x y e hx
    unfold fileExt
    rw [h1]
    simp only [Res.ok_bind]
    have : find (lit ".") (trimmed f) = some x.length := by
      have := find_eq_some (occ := ['.']) (x := x) (y := y) (by
        intro x' y' e'
        rcases Nat.lt_or_ge x'.length x.length with hlt | hge
        · exfalso
          have hpre : x' ++ ['.'] <+: x := by
            have h1 : x' ++ ['.'] <+: x ++ ['.'] ++ y := ⟨y', e'.symm⟩
            have h2 : x <+: x ++ ['.'] ++ y := ⟨['.'] ++ y, by simp⟩
            exact List.prefix_of_prefix_length_le h1 h2 (by simp; omega)
          exact hx (hpre.subset (by simp))
        · exact hge)
      rw [e]
      simpa using this
    rw [this]
    simp only []
    rw [substr_npos hfitt (by rw [e]; simp), e]
    simp
  have ext_none : '.' ∉ trimmed f → fileExt name = .throw .invalidArgument := by
    intro hn
    unfold fileExt
    rw [h1]
    simp only [Res.ok_bind]
    cases hf : find (lit ".") (trimmed f) with
    | none => rfl
    | some n =>
      exfalso
      have := (find_some hf).1
      exact hn (by rw [this]; simp)
  have split : '.' ∈ trimmed f → ∃ x y, trimmed f = x ++ '.' :: y ∧ '.' ∉ x := by
    intro h
    have := List.mem_iff_append.1 h
    obtain ⟨x, y, e, hx⟩ := List.eq_append_cons_of_mem h
    exact ⟨x, y, e, hx⟩
  refine ⟨?_, ?_, ?_⟩
  · rintro ⟨dir, x, trail, e, hdir, hx, hx2, ht⟩
    have hnos : ∀ c ∈ x ++ ext ++ trail, c ≠ '/' := by
      intro c hc hcc
      subst hcc
      simp only [List.mem_append] at hc
      rcases hc with (hc | hc) | hc
      · exact hx hc
      · exact hd hc
      · have := ht _ hc; revert this; decide
    have := C43_path_unique (s := name) (d := dir) (f := x ++ ext ++ trail) (by rw [e]; simp) hnos hdir
    rw [h1] at this
    have hf : f = x ++ ext ++ trail := Res.ok.inj this.2
    -- x = its leading white space and the rest
    obtain ⟨s1, s2, s3⟩ := span_space isSpace x
    have htr : trimmed f = x.dropWhile isSpace ++ ext := by
      rw [hf]
      have e1 : x ++ ext ++ trail = x.takeWhile isSpace ++ (x.dropWhile isSpace ++ ext) ++ trail := by
        rw [← List.append_assoc, ← s1]
      rw [e1]
      refine C45_trim_unique s2 ht (.inr ⟨?_, ?_⟩)
      · rcases s3 with s3 | ⟨c, t, s3, hc⟩
        · rw [s3, he]; exact ⟨'.', e0, rfl, by decide⟩
        · rw [s3]; exact ⟨c, t ++ ext, rfl, hc⟩
      · obtain ⟨b, c, hbc⟩ : ∃ b c, ext = b ++ [c] := by
          rcases List.eq_nil_or_concat ext with h | ⟨b, c, h⟩
          · rw [he] at h; cases h
          · exact ⟨b, c, by rw [h, List.concat_eq_append]⟩
        exact ⟨x.dropWhile isSpace ++ b, c, by rw [hbc]; simp, hs c (by rw [hbc]; simp)⟩
    rw [he] at htr ⊢
    exact ext_some _ _ htr (fun h => hx2 (by rw [s1]; exact List.mem_append.2 (.inr h)))
  · intro h
    by_cases hm : '.' ∈ trimmed f
    · obtain ⟨x, y, e, hx⟩ := split hm
      rw [ext_some x y e hx] at h
      have hy : '.' :: y = ext := Res.ok.inj h
      refine ⟨d, l ++ x, r, ?_, h4, ?_, ?_, t3⟩
      · have : f = l ++ (x ++ ext) ++ r := by rw [← hy, ← e]; exact t1
        rw [h2, this]; simp
      · intro hc
        exact h3 '/' (by rw [t1, e]; simp only [List.mem_append] at hc ⊢; rcases hc with hc | hc <;> simp [hc]) rfl
      · intro hc
        simp only [List.mem_append] at hc
        rcases hc with hc | hc
        · have := t2 _ hc; revert this; decide
        · exact hx hc
    · rw [ext_none hm] at h; cases h
  · by_cases hm : '.' ∈ trimmed f
    · obtain ⟨x, y, e, hx⟩ := split hm
      exact .inr ⟨_, ext_some x y e hx⟩
    · exact .inl (ext_none hm)

/-- C70 (what the readers accept): a log (pun) reader is constructed exactly for the names that, without directory and trailing
white space, are a word without a dot followed by `.log` (`.pun`); every other name is refused with `invalid_argument`. -/
theorem C70_accepted_partial (name : Str) (hfit : Fits name) :
    (logReaderNew (α := α) name = .ok () ↔ PlainName (lit ".log") name) ∧
    (¬ PlainName (lit ".log") name → logReaderNew (α := α) name = .throw .invalidArgument) ∧
    (punReaderNew (α := α) name = .ok () ↔ PlainName (lit ".pun") name) ∧
    (¬ PlainName (lit ".pun") name → punReaderNew (α := α) name = .throw .invalidArgument) := by
  obtain ⟨a1, a2, a3⟩ := fileExt_spec (lit ".log") _ rfl (by decide) (by decide) name hfit
  obtain ⟨b1, b2, b3⟩ := fileExt_spec (lit ".pun") _ rfl (by decide) (by decide) name hfit
  have hc := C68_log_and_pun (α := α)
  have no : ¬ PlainName (lit ".log") name → logReaderNew (α := α) name = .throw .invalidArgument := by
    intro h
    unfold logReaderNew
    rcases a3 with a3 | ⟨e, a3⟩
    · rw [a3]; rfl
    · rw [a3]
      simp only [Res.ok_bind]
      rw [if_pos]
      rintro rfl
      exact h (a2 a3)
  have no2 : ¬ PlainName (lit ".pun") name → punReaderNew (α := α) name = .throw .invalidArgument := by
    intro h
    unfold punReaderNew
    rcases b3 with b3 | ⟨e, b3⟩
    · rw [b3]; rfl
    · rw [b3]
      simp only [Res.ok_bind]
      rw [if_pos]
      rintro rfl
      exact h (b2 b3)
  refine ⟨⟨fun h => Classical.byContradiction fun hn => ?_, fun h => ?_⟩, no,
    ⟨fun h => Classical.byContradiction fun hn => ?_, fun h => ?_⟩, no2⟩
  · rw [no hn] at h; cases h
  · unfold logReaderNew; rw [a1 h]; simp only [Res.ok_bind]; rw [if_neg (by simp)]; exact hc.1
  · rw [no2 hn] at h; cases h
  · unfold punReaderNew; rw [b1 h]; simp only [Res.ok_bind]; rw [if_neg (by simp)]; exact hc.2.2.1

/-- C70 is false: `dimer.b3lyp.log` has the extension `.log`, `Parameters` takes it, and the reader refuses it. -/
theorem C70_refuted : ∃ name : Str, (lit ".log") <:+ name ∧
    (∃ p', Params.call Params.init (.logP name) = .ok p') ∧ logReaderNew (α := α) name = .throw .invalidArgument := by
  refine ⟨(lit "dimer.b3lyp.log"), ⟨(lit "dimer.b3lyp"), rfl⟩, ⟨_, rfl⟩, ?_⟩
  unfold logReaderNew
  rw [show fileExt (lit "dimer.b3lyp.log") = .ok (lit ".b3lyp.log") by decide]
  rfl

/-- Conversely, a name with a blank at its end is refused by `Parameters`, and the reader takes it. -/
theorem C70_refuted_blank : (∃ e, Params.call Params.init (.logP (lit "a.log ")) = .throw e) ∧
    logReaderNew (α := α) (lit "a.log ") = .ok () :=
  ⟨⟨.invalidArgument, by decide⟩, (C70_accepted_partial _ (by unfold Fits; decide)).1.2
    ⟨[], (lit "a"), (lit " "), rfl, .inl rfl, by decide, by decide, by decide⟩⟩

/-- A name the readers accept. -/
example : PlainName (lit ".log") (lit "run/dimer.log") :=
  ⟨(lit "run/"), (lit "dimer"), [], rfl, .inr ⟨(lit "run"), rfl⟩, by decide, by decide, by simp⟩

end Verif.Readers
