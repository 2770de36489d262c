import Verif.Spec.LogLines
import Verif.ReaderLemmas
/-
What `>>` gets from a line.
-/
namespace Verif.Readers
open Strings Log LogLines

theorem words_eq (s : Str) : words s = splitSt s := by
  induction s with
  | nil => rfl
  | cons c s ih =>
    rw [words]
    by_cases hc : isSpace c = true
    · rw [if_pos (show White c = true from hc), ih, splitSt_eq, splitSt_eq, tokens, if_pos hc, if_pos rfl]
    · rw [if_neg (show ¬ White c = true from hc)]
      have hc' : isSpace c = false := by simpa using hc
      rw [splitSt_word s hc']
      have h1 : (c :: s).takeWhile (fun c => !isSpace c) = c :: s.takeWhile (fun c => !isSpace c) := by simp [hc']
      have h2 : (c :: s).dropWhile (fun c => !isSpace c) = s.dropWhile (fun c => !isSpace c) := by simp [hc']
      rw [h1, h2, ih]
      cases s with
      | nil => simp
      | cons d s =>
        by_cases hd : isSpace d = true
        · rw [if_pos (show Option.all White (d :: s).head? = true from hd)]
          simp [hd]
        · have hd' : isSpace d = false := by simpa using hd
          rw [if_neg (show ¬ Option.all White (d :: s).head? = true from hd), splitSt_word s hd']

/-- The words of the text are its words in the sense of `Layout`. -/
theorem words_layout (s : Str) : Layout s (words s) := by
  rw [words_eq]; exact layout_splitSt s

/-- All that a loop of `>>` gets from a text. -/
def items (t : Str) : List Str := splitSt t ++ if t.getLast?.any isSpace then [[]] else []

theorem beyond_zero (t : Str) : beyond 0 t = items t := by
  unfold beyond items
  rw [if_neg (by omega), List.drop_zero, words_eq]
  rfl

theorem getLast_suffix {a b : Str} (h : b ≠ []) : (a ++ b).getLast? = b.getLast? := by
  rw [List.getLast?_append]
  cases hb : b.getLast? with
  | none => exact absurd (by simpa using hb) h
  | some c => rfl

/-- `>>` on any text. -/
theorem extract_any (t prev : Str) :
    (splitSt t = [] ∧ ∃ s : Stream, s.eof = true ∧ s.text = [] ∧ extract (openText t) prev = (prev, s) ∧ s.fail = true) ∨
    ∃ w rest, splitSt t = w :: splitSt rest ∧ items t = w :: items rest ∧ rest.length < t.length ∧ extract (openText t) prev = (w, after rest) := by
  obtain ⟨e1, e2, e3⟩ := span_space isSpace t
  rcases e3 with e3 | ⟨c, u, e3, hc⟩
  · refine .inl ⟨?_, ⟨[], true, true⟩, rfl, rfl, ?_, rfl⟩
    · rw [splitSt_dropSpace, e3]; rfl
    · unfold extract openText
      simp only [Bool.or_false, Bool.false_eq_true, if_false, e3]
  · refine .inr ⟨(c :: u).takeWhile (fun c => !isSpace c), (c :: u).dropWhile (fun c => !isSpace c), ?_, ?_, ?_, ?_⟩
    · rw [splitSt_dropSpace, e3, splitSt_word _ hc]
    · have hs : splitSt t = (c :: u).takeWhile (fun c => !isSpace c) :: splitSt ((c :: u).dropWhile (fun c => !isSpace c)) := by
        rw [splitSt_dropSpace, e3, splitSt_word _ hc]
      unfold items
      rw [hs, List.cons_append]
      obtain ⟨f1, f2, f3⟩ := span_space (fun c => !isSpace c) (c :: u)
      have et : t.getLast? = (c :: u).getLast? := by
        rw [e1, e3, getLast_suffix (by simp)]
      congr 2
      rw [et]
      by_cases hr : (c :: u).dropWhile (fun c => !isSpace c) = []
      · rw [hr, List.append_nil] at f1
        rw [hr]
        have : ∀ x, (c :: u).getLast? = some x → isSpace x = false := by
          intro x hx
          have hm := List.mem_of_getLast? hx
          rw [f1] at hm
          simpa using f2 x hm
        cases hx : (c :: u).getLast? with
        | none => rfl
        | some x => simp [this x hx]
      · conv => lhs; rw [f1]
        rw [getLast_suffix hr]
    · have hl := congrArg List.length e1
      obtain ⟨f1, f2, f3⟩ := span_space (fun c => !isSpace c) (c :: u)
      have hl2 := congrArg List.length f1
      rw [e3] at hl
      have : 1 ≤ ((c :: u).takeWhile (fun c => !isSpace c)).length := by
        rw [List.takeWhile_cons, if_pos (by simp [hc])]; simp
      simp only [List.length_append] at hl hl2
      omega
    · unfold extract openText
      simp only [Bool.or_false, Bool.false_eq_true, if_false, e3]
      rfl

theorem items_nil : items [] = [] := rfl

/-- The loop `while (!iss.eof())`. -/
theorem restOf_items {β : Type} (body : β → Str → Res β) (t : Str) (acc : β) :
    restOf body (after t) acc = (items t).foldlM body acc := by
  have key : ∀ n (t : Str) (acc : β), t.length < n → restLoop body (n + 1) (after t) acc = (items t).foldlM body acc := by
    intro n
    induction n with
    | zero => intro t acc hn; omega
    | succ n ih =>
      intro t acc hn
      by_cases hne : t = []
      · subst hne
        rw [after_nil, restLoop, if_pos rfl]
        rfl
      · rw [restLoop, after_open hne, if_neg (by simp [openText])]
        rcases extract_any t [] with ⟨h1, s, h2, -, h3, -⟩ | ⟨w, rest, h1, h2, h3, h4⟩
        · have hi : items t = [[]] := by
            unfold items
            rw [h1, List.nil_append, if_pos]
            have hw := (splitSt_nil_iff t).1 h1
            cases hx : t.getLast? with
            | none => exact absurd (by simpa using hx) hne
            | some x => simpa using hw x (List.mem_of_getLast? hx)
          rw [h3, hi]
          simp only [List.foldlM_cons, List.foldlM_nil]
          cases hb : body acc [] with
          | ok acc' =>
            simp only [Res.ok_bind]
            cases n with
            | zero => exact absurd (List.length_eq_zero_iff.1 (by omega)) hne
            | succ n => rw [restLoop, if_pos h2]; rfl
          | _ => rfl
        · rw [h4, h2]
          simp only [List.foldlM_cons]
          cases hb : body acc w with
          | ok acc' => simp only [Res.ok_bind]; exact ih rest acc' (by omega)
          | _ => rfl
  unfold restOf
  exact key _ t acc (by simp [after])

theorem restOf_dead {β : Type} (body : β → Str → Res β) {s : Stream} (h : s.eof = true) (acc : β) : restOf body s acc = .ok acc := by
  unfold restOf restLoop
  rw [if_pos h]

/-- `n` words taken from the start of the line. -/
def Taken (l : Str) (n : Nat) (s : Stream) : Prop :=
  ((words l).length < n ∧ s.eof = true ∧ s.fail = true) ∨ ∃ rest, n ≤ (words l).length ∧ s = after rest ∧ (words l).drop n = splitSt rest ∧ beyond n l = items rest

theorem taken_first (l prev : Str) : (extract (openText l) prev).1 = (words l)[0]?.getD prev ∧ Taken l 1 (extract (openText l) prev).2 := by
  rcases extract_any l prev with ⟨h1, s, h2, -, h3, h4⟩ | ⟨w, rest, h1, h2, h3, h4⟩
  · rw [h3, words_eq, h1]
    exact ⟨rfl, .inl ⟨by rw [words_eq, h1]; decide, h2, h4⟩⟩
  · rw [h4]
    refine ⟨by rw [words_eq, h1]; rfl, .inr ⟨rest, by rw [words_eq, h1]; simp, rfl, by rw [words_eq, h1]; rfl, ?_⟩⟩
    rw [← beyond_zero] at h2
    unfold beyond at h2 ⊢
    rw [if_neg (by omega), words_eq, h1, List.drop_zero, List.cons_append, List.cons.injEq] at h2
    rw [if_neg (by rw [words_eq, h1]; simp), words_eq, h1]
    exact h2.2

theorem Taken.next {l : Str} {n : Nat} {s : Stream} (h : Taken l n s) (prev : Str) :
    (extract s prev).1 = (words l)[n]?.getD prev ∧ Taken l (n + 1) (extract s prev).2 := by
  rcases h with ⟨h1, h2, h3⟩ | ⟨rest, h1, rfl, h3, h4⟩
  · have e : extract s prev = (prev, { s with fail := true }) := by
      unfold extract
      rw [h2, h3]; rfl
    rw [e, List.getElem?_eq_none (by omega)]
    exact ⟨rfl, .inl ⟨by omega, h2, rfl⟩⟩
  · by_cases hr : rest = []
    · subst hr
      have hl : (words l).length = n := by
        have := congrArg List.length h3
        rw [List.length_drop] at this
        have e : (splitSt []).length = 0 := rfl
        omega
      have e : extract (after []) prev = (prev, ⟨[], true, true⟩) := rfl
      rw [e, List.getElem?_eq_none (by omega)]
      exact ⟨rfl, .inl ⟨by omega, rfl, rfl⟩⟩
    · rw [after_open hr]
      rcases extract_any rest prev with ⟨g1, s, g2, -, g3, g4⟩ | ⟨w, rest', g1, g2, g3, g4⟩
      · have hl : (words l).length = n := by
          have := congrArg List.length h3
          rw [List.length_drop, g1] at this
          simp at this
          omega
        rw [g3, List.getElem?_eq_none (by omega)]
        exact ⟨rfl, .inl ⟨by omega, g2, g4⟩⟩
      · rw [g4]
        rw [g1] at h3
        have hn : n < (words l).length := by
          have := congrArg List.length h3
          rw [List.length_drop] at this
          simp at this
          omega
        have hd := List.drop_eq_getElem_cons hn
        rw [hd, List.cons.injEq] at h3
        refine ⟨by rw [List.getElem?_eq_getElem hn, h3.1]; rfl, .inr ⟨rest', by omega, rfl, h3.2, ?_⟩⟩
        rw [g2] at h4
        unfold beyond at h4 ⊢
        rw [if_neg (by omega), hd, List.cons_append, List.cons.injEq] at h4
        rw [if_neg (by omega)]
        exact h4.2

/-- The rest of the line. -/
theorem Taken.rest {l : Str} {n : Nat} {s : Stream} (h : Taken l n s) {β : Type} (body : β → Str → Res β) (acc : β) :
    restOf body s acc = (beyond n l).foldlM body acc := by
  rcases h with ⟨h1, h2, h3⟩ | ⟨rest, h1, rfl, h3, h4⟩
  · rw [restOf_dead body h2]
    unfold beyond
    rw [if_pos h1]
    rfl
  · rw [restOf_items, h4]

theorem foldlM_mapM {β : Type} (f : Str → Res β) (ws : List Str) (acc : List β) :
    ws.foldlM (pushBack f) acc = ws.mapM f >>= fun vs => .ok (acc ++ vs) := by
  induction ws generalizing acc with
  | nil => simp
  | cons w ws ih =>
    rw [List.foldlM_cons, List.mapM_cons, pushBack]
    simp only [bind_assoc, Res.ok_bind, ih]
    congr 1
    funext v
    simp

/-- Reading fails with an exception or not at all. -/
def OkOrThrow {β : Type} (x : Res β) : Prop := (∃ v, x = .ok v) ∨ ∃ e, x = .throw e

theorem OkOrThrow.bind {β γ : Type} {x : Res β} {f : β → Res γ} (h : OkOrThrow x) (hf : ∀ v, OkOrThrow (f v)) : OkOrThrow (x >>= f) := by
  rcases h with ⟨v, rfl⟩ | ⟨e, rfl⟩
  · exact hf v
  · exact .inr ⟨e, rfl⟩

theorem mapM_cases {β γ : Type} (f : β → Res γ) (hf : ∀ b, OkOrThrow (f b)) (bs : List β) : OkOrThrow (bs.mapM f) := by
  induction bs with
  | nil => exact .inl ⟨[], rfl⟩
  | cons b bs ih =>
    rw [List.mapM_cons]
    exact (hf b).bind fun v => ih.bind fun vs => .inl ⟨_, rfl⟩

end Verif.Readers
