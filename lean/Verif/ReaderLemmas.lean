import Verif.Spec.Readers
import Verif.StringLemmas
import Mathlib.Data.List.Forall2
/-
Lemmas about input streams and the reading loop.
-/
namespace Verif.Readers
open Strings

/-! ### lines -/

@[simp] theorem unlines_nil : unlines [] = [] := rfl
theorem unlines_cons (l : Str) (ls : List Str) : unlines (l :: ls) = l ++ '\n' :: unlines ls := by
  simp [unlines]
theorem unlines_append (a b : List Str) : unlines (a ++ b) = unlines a ++ unlines b := by simp [unlines]
theorem unlines_cons_append (l : Str) (ls : List Str) (rest : Str) :
    unlines (l :: ls) ++ rest = l ++ '\n' :: (unlines ls ++ rest) := by simp [unlines]

theorem takeWhile_line {l : Str} (h : IsLine l) (rest : Str) :
    (l ++ '\n' :: rest).takeWhile (fun c => c ≠ '\n') = l := by
  induction l with
  | nil => simp
  | cons c l ih =>
    have hc : c ≠ '\n' := fun e => h (by simp [e])
    rw [List.cons_append, List.takeWhile_cons, if_pos (by simp [hc]), ih (fun e => h (by simp [e]))]

theorem dropWhile_line {l : Str} (h : IsLine l) (rest : Str) :
    (l ++ '\n' :: rest).dropWhile (fun c => c ≠ '\n') = '\n' :: rest := by
  induction l with
  | nil => simp
  | cons c l ih =>
    have hc : c ≠ '\n' := fun e => h (by simp [e])
    rw [List.cons_append, List.dropWhile_cons, if_pos (by simp [hc]), ih (fun e => h (by simp [e]))]

theorem takeWhile_last {l : Str} (h : IsLine l) : l.takeWhile (fun c => c ≠ '\n') = l := by
  induction l with
  | nil => rfl
  | cons c l ih =>
    have hc : c ≠ '\n' := fun e => h (by simp [e])
    rw [List.takeWhile_cons, if_pos (by simp [hc]), ih (fun e => h (by simp [e]))]

theorem dropWhile_last {l : Str} (h : IsLine l) : l.dropWhile (fun c => c ≠ '\n') = [] := by
  induction l with
  | nil => rfl
  | cons c l ih =>
    have hc : c ≠ '\n' := fun e => h (by simp [e])
    rw [List.dropWhile_cons, if_pos (by simp [hc]), ih (fun e => h (by simp [e]))]

theorem getline_line {l : Str} (h : IsLine l) (rest prev : Str) :
    getline (openText (l ++ '\n' :: rest)) prev = (l, openText rest) := by
  unfold getline openText
  simp only [Bool.or_false, Bool.false_eq_true, if_false]
  cases hl : l ++ '\n' :: rest with
  | nil => simp at hl
  | cons c t =>
    simp only []
    rw [← hl, takeWhile_line h, dropWhile_line h]

theorem getline_end (prev : Str) : getline (openText []) prev = ([], ⟨[], true, true⟩) := rfl

theorem getline_last {l : Str} (h : IsLine l) (hne : l ≠ []) (prev : Str) :
    getline (openText l) prev = (l, ⟨[], true, false⟩) := by
  unfold getline openText
  simp only [Bool.or_false, Bool.false_eq_true, if_false]
  cases hl : l with
  | nil => exact absurd hl hne
  | cons c t =>
    simp only []
    rw [← hl, takeWhile_last h, dropWhile_last h]

theorem getline_bad {s : Stream} (h : s.eof = true ∨ s.fail = true) (prev : Str) :
    getline s prev = (prev, { s with fail := true }) := by
  unfold getline; rw [if_pos (by simpa using h)]

/-- A text is empty, or a last line without end, or starts with a whole line. -/
theorem text_cases (t : Str) : t = [] ∨ (t ≠ [] ∧ IsLine t) ∨ ∃ l rest, IsLine l ∧ t = l ++ '\n' :: rest := by
  by_cases h : '\n' ∈ t
  · right; right
    obtain ⟨e1, e2, e3⟩ := span_space (fun c => c ≠ '\n') t
    rcases e3 with e3 | ⟨c, u, e3, hc⟩
    · exfalso
      rw [e3, List.append_nil] at e1
      rw [e1] at h
      have := e2 _ h
      simp at this
    · have hc : c = '\n' := by simpa using hc
      subst hc
      refine ⟨_, u, ?_, by rw [← e3]; exact e1⟩
      intro hm
      have := e2 _ hm
      simp at this
  · by_cases hn : t = []
    · exact .inl hn
    · exact .inr (.inl ⟨hn, h⟩)

/-- A text whose last character is `'\n'` is a list of lines. -/
theorem text_lines (t : Str) (h : t = [] ∨ t.getLast? = some '\n') : ∃ ls, t = unlines ls ∧ ∀ l ∈ ls, IsLine l := by
  have : ∀ n, ∀ t : Str, t.length ≤ n → (t = [] ∨ t.getLast? = some '\n') → ∃ ls, t = unlines ls ∧ ∀ l ∈ ls, IsLine l := by
    intro n
    induction n with
    | zero =>
      intro t ht _
      have : t = [] := List.eq_nil_of_length_eq_zero (by omega)
      exact ⟨[], by simp [this], by simp⟩
    | succ n ih =>
      intro t ht h
      rcases text_cases t with rfl | ⟨hne, hl⟩ | ⟨l, rest, hl, rfl⟩
      · exact ⟨[], rfl, by simp⟩
      · exfalso
        rcases h with h | h
        · exact hne h
        · exact hl (List.mem_of_getLast? h)
      · obtain ⟨ls, e, hls⟩ := ih rest (by simp at ht; omega) (by
          rcases h with h | h
          · simp at h
          · cases rest with
            | nil => left; rfl
            | cons c u => right; simpa [List.getLast?_append, List.getLast?_cons_cons] using h)
        refine ⟨l :: ls, by rw [unlines_cons, e], ?_⟩
        intro x hx
        rcases List.mem_cons.1 hx with rfl | hx
        · exact hl
        · exact hls x hx
  exact this t.length t (Nat.le_refl _) h

/-! ### words -/

theorem tokens_acc (acc s : Str) (hacc : acc ≠ []) :
    tokens acc s = (acc.reverse ++ s.takeWhile (fun c => !isSpace c)) :: tokens [] (s.dropWhile (fun c => !isSpace c)) := by
  induction s generalizing acc with
  | nil => simp [tokens, hacc]
  | cons c s ih =>
    by_cases hc : isSpace c = true
    · have h1 : (c :: s).takeWhile (fun c => !isSpace c) = [] := by simp [hc]
      have h2 : (c :: s).dropWhile (fun c => !isSpace c) = c :: s := by simp [hc]
      rw [h1, h2]
      conv => lhs; rw [tokens, if_pos hc, if_neg hacc]
      conv => rhs; rw [tokens, if_pos hc, if_pos rfl]
      simp
    · have h1 : (c :: s).takeWhile (fun c => !isSpace c) = c :: s.takeWhile (fun c => !isSpace c) := by
        simp [hc]
      have h2 : (c :: s).dropWhile (fun c => !isSpace c) = s.dropWhile (fun c => !isSpace c) := by simp [hc]
      rw [h1, h2, tokens, if_neg hc, ih _ (by simp)]
      simp

theorem splitSt_dropSpace (s : Str) : splitSt s = splitSt (s.dropWhile isSpace) := by
  rw [splitSt_eq, splitSt_eq]
  obtain ⟨e1, e2, -⟩ := span_space isSpace s
  conv => lhs; rw [e1]
  exact tokens_space _ e2 _

theorem splitSt_word {c : Char} (s : Str) (hc : isSpace c = false) :
    splitSt (c :: s) = (c :: s).takeWhile (fun c => !isSpace c) :: splitSt ((c :: s).dropWhile (fun c => !isSpace c)) := by
  rw [splitSt_eq, splitSt_eq]
  have h1 : (c :: s).takeWhile (fun c => !isSpace c) = c :: s.takeWhile (fun c => !isSpace c) := by simp [hc]
  have h2 : (c :: s).dropWhile (fun c => !isSpace c) = s.dropWhile (fun c => !isSpace c) := by simp [hc]
  rw [h1, h2, tokens, if_neg (by simp [hc]), tokens_acc _ _ (by simp)]
  simp

theorem splitSt_nil_iff (s : Str) : splitSt s = [] ↔ ∀ c ∈ s, isSpace c = true := by
  constructor
  · intro h
    rw [splitSt_dropSpace] at h
    obtain ⟨e1, e2, e3⟩ := span_space isSpace s
    rcases e3 with e3 | ⟨c, t, e3, hc⟩
    · rw [e3, List.append_nil] at e1; rw [e1]; exact e2
    · rw [e3, splitSt_word _ hc] at h; cases h
  · intro h
    have := tokens_space s h []
    rw [List.append_nil] at this
    rw [splitSt_eq, this]; rfl

theorem NoTrail.suffix {a b : Str} (h : NoTrail (a ++ b)) : NoTrail b := by
  intro c hc
  apply h c
  rw [List.getLast?_append, hc]; rfl

/-- `>>` on a text that does not end in white space. -/
theorem extract_words {t : Str} {w : Str} {ws : List Str} (h : splitSt t = w :: ws) (ht : NoTrail t) (prev : Str) :
    ∃ rest, extract (openText t) prev = (w, ⟨rest, rest.isEmpty, false⟩) ∧ splitSt rest = ws ∧ NoTrail rest ∧
      rest.length < t.length := by
  rw [splitSt_dropSpace] at h
  obtain ⟨e1, e2, e3⟩ := span_space isSpace t
  rcases e3 with e3 | ⟨c, u, e3, hc⟩
  · rw [e3] at h; cases h
  · rw [e3, splitSt_word _ hc] at h
    injection h with hw hws
    obtain ⟨f1, f2, f3⟩ := span_space (fun c => !isSpace c) (c :: u)
    refine ⟨(c :: u).dropWhile (fun c => !isSpace c), ?_, hws, ?_, ?_⟩
    · unfold extract openText
      simp only [Bool.or_false, Bool.false_eq_true, if_false, e3]
      rw [hw]
    · rw [e1, e3, f1, ← List.append_assoc] at ht
      exact ht.suffix
    · have hl := congrArg List.length e1
      have hl2 := congrArg List.length f1
      rw [e3] at hl
      have : 1 ≤ ((c :: u).takeWhile (fun c => !isSpace c)).length := by
        rw [List.takeWhile_cons, if_pos (by simp [hc])]; simp
      simp only [List.length_append] at hl hl2
      omega

/-- The stream that is left after some words: at the end exactly if nothing is left. -/
def after (rest : Str) : Stream := ⟨rest, rest.isEmpty, false⟩

theorem after_nil : after [] = ⟨[], true, false⟩ := rfl

theorem after_open {rest : Str} (h : rest ≠ []) : after rest = openText rest := by
  cases rest with
  | nil => exact absurd rfl h
  | cons c t => rfl

theorem words_nil {rest : Str} (h : splitSt rest = []) (ht : NoTrail rest) : rest = [] := by
  cases hr : rest.getLast? with
  | none => simpa using hr
  | some c =>
    exfalso
    have h1 : isSpace c = false := ht c hr
    have h2 := (splitSt_nil_iff rest).1 h c (List.mem_of_getLast? hr)
    simp [h1] at h2

theorem extract_after {t : Str} {w : Str} {ws : List Str} (h : splitSt t = w :: ws) (ht : NoTrail t) (prev : Str) :
    ∃ rest, extract (after t) prev = (w, after rest) ∧ splitSt rest = ws ∧ NoTrail rest := by
  have hne : t ≠ [] := by rintro rfl; cases h
  rw [after_open hne]
  obtain ⟨rest, h1, h2, h3, -⟩ := extract_words h ht prev
  exact ⟨rest, h1, h2, h3⟩

theorem extract_after_nil {t : Str} (h : splitSt t = []) (ht : NoTrail t) (prev : Str) :
    extract (after t) prev = (prev, ⟨[], true, true⟩) := by
  rw [words_nil h ht]; rfl

/-- The idiom `while (!iss.eof())` visits exactly the words that are left. -/
theorem restOf_words {β : Type} (body : β → Str → Res β) {t : Str} {ws : List Str} (h : splitSt t = ws) (ht : NoTrail t)
    (acc : β) : restOf body (after t) acc = ws.foldlM body acc := by
  have key : ∀ n (t : Str) (ws : List Str) (acc : β), splitSt t = ws → NoTrail t → t.length < n →
      restLoop body n (after t) acc = ws.foldlM body acc := by
    intro n
    induction n with
    | zero => intro t ws acc _ _ hn; omega
    | succ n ih =>
      intro t ws acc h ht hn
      cases ws with
      | nil => rw [words_nil h ht]; rfl
      | cons w ws =>
        have hne : t ≠ [] := by rintro rfl; cases h
        obtain ⟨rest, h1, h2, h3, h4⟩ := extract_words h ht []
        rw [restLoop, after_open hne, if_neg (by simp [openText]), h1]
        simp only [List.foldlM_cons]
        cases hb : body acc w with
        | ok acc' =>
          simp only [Res.ok_bind]
          exact ih rest ws acc' h2 h3 (by omega)
        | _ => rfl
  exact key _ t ws acc h ht (by simp [after])

theorem foldlM_pushBack {β : Type} (f : Str → Res β) (ws : List Str) (vs acc : List β)
    (h : List.Forall₂ (fun w v => f w = .ok v) ws vs) : ws.foldlM (pushBack f) acc = .ok (acc ++ vs) := by
  induction h generalizing acc with
  | nil => simp
  | cons h1 _ ih => rw [List.foldlM_cons, pushBack, h1]; simp [ih]

theorem Words.split {l : Str} {ws : List Str} (h : Words l ws) : splitSt l = ws := h.1.split

/-! ### searching -/

theorem not_found {s sub : Str} {c : Char} (h1 : c ∈ sub) (h2 : c ∉ s) : foundSubStrInStr s sub = false := by
  cases h : foundSubStrInStr s sub with
  | false => rfl
  | true =>
    obtain ⟨x, y, rfl⟩ := found_iff.1 h
    exact absurd (by simp [h1]) h2

theorem found_contains {s sub : Str} : foundSubStrInStr s sub = true ↔ Contains s sub := found_iff

theorem not_found_contains {s sub : Str} : foundSubStrInStr s sub = false ↔ ¬ Contains s sub := by
  rw [← found_contains]; simp

/-! ### the reading loop -/

section
variable {σ : Type}

/-- Reading the text `text` from its start, the members of the derived class being `data`. -/
def runFrom (s : Sections σ) (text : Str) (data : σ) (fuel : Nat) : Res σ := do
  let r ← readLoop s fuel ⟨openText text, some text, data⟩ []
  .ok r.data

theorem readLoop_line (s : Sections σ) (fuel : Nat) (r : FR σ) (l1 l2 : Str) : readLoop s fuel r l1 = readLoop s fuel r l2 := by
  cases fuel with
  | zero => rfl
  | succ fuel =>
    unfold readLoop
    by_cases h : r.fid.eof = true ∨ r.fid.fail = true
    · rw [getline_bad h, getline_bad h]; simp
    · have : ∀ l, getline r.fid l = getline r.fid [] := by
        intro l
        unfold getline
        rw [if_neg (by simpa using h), if_neg (by simpa using h)]
      rw [this l1, this l2]

theorem read_eq (s : Sections σ) (fs : Str → Option Str) (name text : Str) (h : fs name = some text) (fuel : Nat) (data : σ) :
    read s fs name fuel data = runFrom s text data fuel := by
  unfold read runFrom; rw [h]

/-- The tag of no section is empty, and each has a reader. -/
def Sections.Ok (s : Sections σ) : Prop := ∀ th ∈ s.headers, th.1 ≠ [] ∧ ∃ f, s.readers.get th.1 = some f

theorem runFrom_end (s : Sections σ) (data : σ) (fuel : Nat) : runFrom s [] data (fuel + 1) = .ok data := by
  unfold runFrom readLoop; rw [getline_end]; rfl

theorem runFrom_boring (s : Sections σ) {l : Str} (hl : IsLine l) (hb : startSection s.headers l = []) (rest : Str) (data : σ)
    (fuel : Nat) : runFrom s (l ++ '\n' :: rest) data (fuel + 1) = runFrom s rest data fuel := by
  unfold runFrom
  conv => lhs; rw [readLoop]
  simp only [getline_line hl]
  rw [if_neg (by simp [openText]), hb]
  simp only [ne_eq, not_true, if_false, Res.ok_bind]
  rw [show tellg (openText rest) = (some rest, openText rest) from rfl]
  rw [readLoop_line s fuel _ l []]

theorem runFrom_last (s : Sections σ) {l : Str} (hl : IsLine l) (hne : l ≠ []) (hb : startSection s.headers l = []) (data : σ)
    (fuel : Nat) : runFrom s l data (fuel + 2) = .ok data := by
  unfold runFrom readLoop
  simp only [getline_last hl hne]
  rw [if_neg (by simp), hb]
  simp only [ne_eq, not_true, if_false, Res.ok_bind]
  rfl

/-- What reading continues with after a section reader. -/
def continueFrom (s : Sections σ) (fuel : Nat) (r : FR σ) : Res σ := do
  let (pos, fid) := tellg r.fid
  let r ← readLoop s fuel { r with fid := fid, pos := pos } []
  .ok r.data

theorem runFrom_section (s : Sections σ) {l tag : Str} {f : SectionReader σ} (hl : IsLine l)
    (ht : startSection s.headers l = tag) (hne : tag ≠ []) (hf : s.readers.get tag = some f) (rest : Str) (data : σ) (fuel : Nat) :
    runFrom s (l ++ '\n' :: rest) data (fuel + 1) =
      (f fuel ⟨openText rest, some (l ++ '\n' :: rest), data⟩ >>= continueFrom s fuel) := by
  unfold runFrom readLoop
  simp only [getline_line hl]
  rw [if_neg (by simp [openText]), ht]
  simp only [ne_eq, hne, not_false_eq_true, if_true]
  unfold readSection
  rw [hf]
  simp only []
  cases f fuel ⟨openText rest, some (l ++ '\n' :: rest), data⟩ with
  | ok r =>
    simp only [Res.ok_bind]
    unfold continueFrom
    rw [readLoop_line s fuel _ l []]
  | _ => rfl

/-- The same for a last line without end. -/
theorem runFrom_section_last (s : Sections σ) {l tag : Str} {f : SectionReader σ} (hl : IsLine l) (hn : l ≠ [])
    (ht : startSection s.headers l = tag) (hne : tag ≠ []) (hf : s.readers.get tag = some f) (data : σ) (fuel : Nat) :
    runFrom s l data (fuel + 1) = (f fuel ⟨⟨[], true, false⟩, some l, data⟩ >>= continueFrom s fuel) := by
  unfold runFrom readLoop
  simp only [getline_last hl hn]
  rw [if_neg (by simp), ht]
  simp only [ne_eq, hne, not_false_eq_true, if_true]
  unfold readSection
  rw [hf]
  simp only []
  cases f fuel ⟨⟨[], true, false⟩, some l, data⟩ with
  | ok r =>
    simp only [Res.ok_bind]
    unfold continueFrom
    rw [readLoop_line s fuel _ l []]
  | _ => rfl

theorem continueFrom_open (s : Sections σ) (fuel : Nat) (text : Str) (pos : Option Str) (data : σ) :
    continueFrom s fuel ⟨openText text, pos, data⟩ = runFrom s text data fuel := rfl

theorem continueFrom_bad (s : Sections σ) (fuel : Nat) (fid : Stream) (pos : Option Str) (data : σ)
    (h : fid.eof = true ∨ fid.fail = true) : continueFrom s (fuel + 1) ⟨fid, pos, data⟩ = .ok data := by
  unfold continueFrom tellg
  simp only []
  rw [if_pos (by simpa using h)]
  simp only []
  unfold readLoop
  rw [getline_bad (by simp)]
  simp

/-! ### ends and hangs -/

theorem Ends.of_le {β : Type} {f : Nat → Res β} {out : Res β} (N : Nat) (h0 : out ≠ .diverge)
    (h : ∀ fuel, f (fuel + N) = out) : Ends f out := by
  refine ⟨h0, N, fun fuel hf => ?_⟩
  have := h (fuel - N)
  rwa [Nat.sub_add_cancel hf] at this

theorem Ends.succ {β : Type} {f g : Nat → Res β} {out : Res β} (h : ∀ fuel, f (fuel + 1) = g fuel) (hg : Ends g out) :
    Ends f out := by
  obtain ⟨h0, N, hN⟩ := hg
  refine ⟨h0, N + 1, fun fuel hf => ?_⟩
  obtain ⟨k, rfl⟩ := Nat.exists_eq_add_of_le' hf
  rw [← Nat.add_assoc, h]; exact hN _ (by omega)

theorem Ends.unique {β : Type} {f : Nat → Res β} {a b : Res β} (ha : Ends f a) (hb : Ends f b) : a = b := by
  obtain ⟨-, N, hN⟩ := ha
  obtain ⟨-, M, hM⟩ := hb
  rw [← hN (max N M) (Nat.le_max_left _ _), hM _ (Nat.le_max_right _ _)]

theorem Hangs.succ {β : Type} {f g : Nat → Res β} (h0 : f 0 = .diverge) (h : ∀ fuel, f (fuel + 1) = g fuel) (hg : Hangs g) :
    Hangs f := by
  intro fuel
  cases fuel with
  | zero => exact h0
  | succ n => rw [h, hg]

/-- A reading loop that ends for some number of steps ends in the same way for more of them, for monotone readers; not needed:
all section readers here are given by their outcome for all large numbers of steps. -/
theorem Ends.bind {β γ : Type} {f : Nat → Res β} {g : Nat → β → Res γ} {a : β} {out : Res γ} (hf : Ends f (.ok a))
    (hg : Ends (fun n => g n a) out) : Ends (fun n => f n >>= g n) out := by
  obtain ⟨-, N, hN⟩ := hf
  obtain ⟨h0, M, hM⟩ := hg
  refine ⟨h0, max N M, fun fuel h => ?_⟩
  show (f fuel >>= g fuel) = out
  rw [hN fuel (Nat.le_trans (Nat.le_max_left _ _) h), Res.ok_bind]
  exact hM fuel (Nat.le_trans (Nat.le_max_right _ _) h)

theorem Ends.bind_fail {β γ : Type} {f : Nat → Res β} {g : Nat → β → Res γ} {e : Exn} (hf : Ends f (.throw e)) :
    Ends (fun n => f n >>= g n) (.throw e) := by
  obtain ⟨-, N, hN⟩ := hf
  refine ⟨by simp, N, fun fuel h => ?_⟩
  show (f fuel >>= g fuel) = _
  rw [hN fuel h]; rfl

theorem Ends.ok_const {β : Type} (a : β) : Ends (fun _ => Res.ok a) (.ok a) := ⟨by simp, 0, fun _ _ => rfl⟩

theorem run_end (s : Sections σ) (data : σ) : Ends (runFrom s [] data) (.ok data) :=
  Ends.of_le 1 (by simp) (fun fuel => runFrom_end s data fuel)

theorem run_boring (s : Sections σ) {l : Str} (hl : IsLine l) (hb : startSection s.headers l = []) {rest : Str} {data : σ}
    {out : Res σ} (h : Ends (runFrom s rest data) out) : Ends (runFrom s (l ++ '\n' :: rest) data) out :=
  h.succ (fun fuel => runFrom_boring s hl hb rest data fuel)

theorem hang_boring (s : Sections σ) {l : Str} (hl : IsLine l) (hb : startSection s.headers l = []) {rest : Str} {data : σ}
    (h : Hangs (runFrom s rest data)) : Hangs (runFrom s (l ++ '\n' :: rest) data) :=
  h.succ rfl (fun fuel => runFrom_boring s hl hb rest data fuel)

/-- Many lines without a header. -/
theorem run_boring_lines (s : Sections σ) {ls : List Str} (hl : ∀ l ∈ ls, IsLine l ∧ startSection s.headers l = []) {rest : Str}
    {data : σ} {out : Res σ} (h : Ends (runFrom s rest data) out) : Ends (runFrom s (unlines ls ++ rest) data) out := by
  induction ls with
  | nil => simpa using h
  | cons l ls ih =>
    rw [unlines_cons_append]
    exact run_boring s (hl l (by simp)).1 (hl l (by simp)).2 (ih (fun x hx => hl x (by simp [hx])))

theorem hang_boring_lines (s : Sections σ) {ls : List Str} (hl : ∀ l ∈ ls, IsLine l ∧ startSection s.headers l = []) {rest : Str}
    {data : σ} (h : Hangs (runFrom s rest data)) : Hangs (runFrom s (unlines ls ++ rest) data) := by
  induction ls with
  | nil => simpa using h
  | cons l ls ih =>
    rw [unlines_cons_append]
    exact hang_boring s (hl l (by simp)).1 (hl l (by simp)).2 (ih (fun x hx => hl x (by simp [hx])))

theorem run_section (s : Sections σ) {l tag : Str} {f : SectionReader σ} (hl : IsLine l)
    (ht : startSection s.headers l = tag) (hne : tag ≠ []) (hf : s.readers.get tag = some f) {rest rest' : Str} {pos : Option Str}
    {data data' : σ} {out : Res σ}
    (h1 : Ends (fun n => f n ⟨openText rest, some (l ++ '\n' :: rest), data⟩) (.ok ⟨openText rest', pos, data'⟩))
    (h2 : Ends (runFrom s rest' data') out) : Ends (runFrom s (l ++ '\n' :: rest) data) out :=
  Ends.succ (fun fuel => runFrom_section s hl ht hne hf rest data fuel)
    (Ends.bind h1 (by simpa only [continueFrom_open] using h2))

theorem run_section_bad (s : Sections σ) {l tag : Str} {f : SectionReader σ} (hl : IsLine l)
    (ht : startSection s.headers l = tag) (hne : tag ≠ []) (hf : s.readers.get tag = some f) {rest : Str} {fid : Stream}
    {pos : Option Str} {data data' : σ}
    (h1 : Ends (fun n => f n ⟨openText rest, some (l ++ '\n' :: rest), data⟩) (.ok ⟨fid, pos, data'⟩))
    (hb : fid.eof = true ∨ fid.fail = true) : Ends (runFrom s (l ++ '\n' :: rest) data) (.ok data') :=
  Ends.succ (fun fuel => runFrom_section s hl ht hne hf rest data fuel)
    (Ends.bind h1 (Ends.of_le 1 (by simp) (fun fuel => continueFrom_bad s fuel fid pos data' hb)))

theorem run_section_throw (s : Sections σ) {l tag : Str} {f : SectionReader σ} (hl : IsLine l)
    (ht : startSection s.headers l = tag) (hne : tag ≠ []) (hf : s.readers.get tag = some f) {rest : Str} {data : σ} {e : Exn}
    (h1 : Ends (fun n => f n ⟨openText rest, some (l ++ '\n' :: rest), data⟩) (.throw e)) :
    Ends (runFrom s (l ++ '\n' :: rest) data) (.throw e) :=
  Ends.succ (fun fuel => runFrom_section s hl ht hne hf rest data fuel) (Ends.bind_fail h1)

theorem hang_section (s : Sections σ) {l tag : Str} {f : SectionReader σ} (hl : IsLine l)
    (ht : startSection s.headers l = tag) (hne : tag ≠ []) (hf : s.readers.get tag = some f) {rest : Str} {data : σ}
    (h1 : Hangs (fun n => f n ⟨openText rest, some (l ++ '\n' :: rest), data⟩)) : Hangs (runFrom s (l ++ '\n' :: rest) data) :=
  Hangs.succ rfl (fun fuel => runFrom_section s hl ht hne hf rest data fuel)
    (fun fuel => by have := h1 fuel; simp only at this; rw [this]; rfl)

end

/-! ### which section a line starts -/

theorem startSection_none {headers : Map (List Str)} {line : Str} (h : ∀ th ∈ headers, ∀ p ∈ th.2, ¬ Contains line p) :
    startSection headers line = [] := by
  unfold startSection
  rw [List.find?_eq_none.2]
  intro th hth
  simp only [List.any_eq_true, not_exists, not_and]
  intro p hp hf
  exact h th hth p hp (found_contains.1 hf)

end Verif.Readers
