import Verif.LogFileLemmas
import Verif.PunLemmas
/-
Termination of reading, for files that need not be well formed.
-/
namespace Verif.Readers
open Strings Log

/-! ### pieces that always end -/

/-- The outcome is not an endless loop. -/
def Halts {β : Type} (x : Res β) : Prop := x ≠ .diverge

theorem Halts.bind {β γ : Type} {x : Res β} {f : β → Res γ} (hx : Halts x) (hf : ∀ a, x = .ok a → Halts (f a)) : Halts (x >>= f) := by
  cases x with
  | ok a => exact hf a rfl
  | diverge => exact absurd rfl hx
  | _ => simp [Halts]

theorem Halts.ok {β : Type} (a : β) : Halts (Res.ok a) := by simp [Halts]
theorem Halts.throw {β : Type} (e : Exn) : Halts (Res.throw e : Res β) := by simp [Halts]

theorem substr_halts (s : Str) (p l : Nat) : Halts (substr s p l) := by
  unfold substr; split <;> simp [Halts]

theorem vecAt_halts {β : Type} (l : List β) (i : Int) : Halts (vecAt l i) := by
  unfold vecAt; split
  · simp [Halts]
  · split <;> simp [Halts]

theorem stoi_halts (s : Str) : Halts (stoi s) := by
  unfold stoi; split
  · simp [Halts]
  · split <;> simp [Halts]

variable {α : Type} [Mul α] [Num α] [Zero α]

omit [Zero α] in
theorem stod_halts (s : Str) : Halts (Num.stod s : Res α) := by
  rcases Num.stod_cases (α := α) s with ⟨v, h⟩ | ⟨e, h⟩ <;> rw [h] <;> simp [Halts]

theorem grabBefore_halts (a b : Str) : Halts (grabStrBeforeFirstOccurance a b) := by
  unfold grabStrBeforeFirstOccurance
  split
  · simp [Halts]
  · exact substr_halts _ _ _

theorem grabAfter_halts (a b : Str) : Halts (grabStrAfterFirstOccurance a b) := by
  unfold grabStrAfterFirstOccurance
  split
  · simp [Halts]
  · exact substr_halts _ _ _

omit [Zero α] in
theorem fortran_halts (s : Str) : Halts (fortran s : Res α) :=
  (grabBefore_halts _ _).bind fun _ _ => (grabAfter_halts _ _).bind fun _ _ => (stod_halts _).bind fun _ _ =>
    (stod_halts _).bind fun _ _ => .ok _

theorem pushBack_halts {β : Type} {f : Str → Res β} (hf : ∀ s, Halts (f s)) (acc : List β) (s : Str) : Halts (pushBack f acc s) :=
  (hf s).bind fun _ _ => .ok _

/-- Every pass of the idiom consumes text or sets `eofbit`. -/
theorem extract_progress (s : Stream) (w : Str) :
    (extract s w).2.eof = true ∨ (extract s w).2.text.length < s.text.length ∨ s.fail = true := by
  unfold extract
  by_cases h : s.eof = true ∨ s.fail = true
  · rw [if_pos (by simpa using h)]
    rcases h with h | h
    · exact .inl h
    · exact .inr (.inr h)
  · rw [if_neg (by simpa using h)]
    cases hd : s.text.dropWhile isSpace with
    | nil => exact .inl rfl
    | cons c t =>
      right; left
      obtain ⟨e1, e2, e3⟩ := span_space isSpace s.text
      obtain ⟨f1, -, -⟩ := span_space (fun c => !isSpace c) (c :: t)
      have hc : isSpace c = false := by
        rcases e3 with e3 | ⟨c', u, e3, hc⟩
        · rw [e3] at hd; cases hd
        · rw [e3] at hd; injection hd with h1 h2; rw [← h1]; exact hc
      have l1 := congrArg List.length e1
      have l2 := congrArg List.length f1
      rw [hd] at l1
      simp only [List.length_append] at l1 l2
      have : 1 ≤ ((c :: t).takeWhile (fun c => !isSpace c)).length := by
        rw [List.takeWhile_cons, if_pos (by simp [hc])]; simp
      simp only []
      omega

theorem extract_fail (s : Stream) (w : Str) (h : (extract s w).2.fail = true) :
    (extract s w).2.eof = true ∨ s.fail = true := by
  unfold extract at h ⊢
  by_cases hb : s.eof = true ∨ s.fail = true
  · rw [if_pos (by simpa using hb)] at h ⊢
    exact hb
  · rw [if_neg (by simpa using hb)] at h ⊢
    cases hd : s.text.dropWhile isSpace with
    | nil => exact .inl rfl
    | cons c t => rw [hd] at h; simp at h

/-- A stream that has failed only by reaching the end. -/
def Sane (s : Stream) : Prop := s.fail = true → s.eof = true

theorem sane_open (t : Str) : Sane (openText t) := by intro h; cases h

theorem Sane.extract {s : Stream} (h : Sane s) (w : Str) : Sane (extract s w).2 := by
  intro hf
  rcases extract_fail s w hf with h' | h'
  · exact h'
  · unfold Readers.extract
    rw [if_pos (by simp [h'])]
    exact h h'

theorem restOf_halts {β : Type} {body : β → Str → Res β} (hb : ∀ a s, Halts (body a s)) (iss : Stream) (hs : Sane iss) (acc : β) :
    Halts (restOf body iss acc) := by
  have key : ∀ n (iss : Stream) (acc : β), Sane iss → iss.text.length + 2 ≤ n → Halts (restLoop body n iss acc) := by
    intro n
    induction n with
    | zero => intro iss acc _ h; omega
    | succ n ih =>
      intro iss acc hs hn
      rw [restLoop]
      by_cases he : iss.eof = true
      · rw [if_pos he]; exact .ok _
      · rw [if_neg he]
        have hprog := extract_progress iss []
        have hs' := hs.extract []
        cases hx : extract iss [] with
        | mk w iss' =>
          rw [hx] at hprog hs'
          simp only [] at hprog hs' ⊢
          refine (hb _ _).bind fun a _ => ?_
          rcases hprog with h | h | h
          · cases n with
            | zero => omega
            | succ n => rw [restLoop, if_pos h]; exact .ok _
          · exact ih _ _ hs' (by omega)
          · exact absurd (hs h) he
  exact key _ iss acc hs (Nat.le_refl _)

theorem splitItemLoop_halts (n : Nat) (s : Str) (hn : s.length < n) (acc : List Str) :
    Halts (splitItemLoop n s (find (lit "-") s) acc) := by
  induction n generalizing s acc with
  | zero => omega
  | succ n ih =>
    cases hf : find (lit "-") s with
    | none => simp only [splitItemLoop]; exact .ok _
    | some pos =>
      have hle := find_some_le hf
      have h1 : (lit "-").length = 1 := rfl
      rw [h1] at hle
      rw [splitItemLoop, substr_ok (by omega)]
      simp only [Res.ok_bind]
      by_cases hp : pos = 0
      · rw [if_pos hp]
        cases hf2 : find (lit "-") (s.drop 1) with
        | none =>
          simp only []
          exact ih _ (by simp; omega) _
        | some p2 =>
          simp only []
          refine (substr_halts _ _ _).bind fun t _ => ?_
          exact ih _ (by simp; omega) _
      · rw [if_neg hp]
        exact ih _ (by simp; omega) _

theorem splitItems_halts (items : List Str) (inc : Nat) (acc : List Str) : Halts (splitItems inc items acc) := by
  induction items generalizing inc acc with
  | nil => exact .ok _
  | cons s items ih =>
    rw [splitItems]
    by_cases h : inc < 4
    · rw [if_pos h]; exact ih _ _
    · rw [if_neg h]
      cases hf : find (lit "-") s with
      | none => exact ih _ _
      | some pos =>
        simp only []
        rw [← hf]
        exact (splitItemLoop_halts _ s (by omega) acc).bind fun a _ => ih _ _

theorem splitStEnergies_halts (line : Str) : Halts (splitStEnergies line) := by
  unfold splitStEnergies
  simp only []
  split
  · exact .ok _
  · exact splitItems_halts _ _ _

theorem write_halts {β : Type} (b : Buf β) (i : Int) (v : β) : Halts (b.write i v) := by
  unfold Buf.write; split <;> simp [Halts]

theorem setElem2_halts {β : Type} (m : Mat β) (v : β) (r c : Int) : Halts (m.setElem2 v r c) := by
  unfold Mat.setElem2
  split
  · simp [Halts]
  · split
    · simp [Halts]
    · split
      · simp [Halts]
      · split
        · simp [Halts]
        · exact (write_halts _ _ _).bind fun _ _ => .ok _

theorem mk2_halts (r c : Int) : Halts (Mat.mk2 r c : Res (Mat α)) := by
  by_cases h : 1 ≤ r ∧ 1 ≤ c
  · obtain ⟨m, hm, -⟩ := Mat.mk2_isMat (α := α) h.1 h.2
    rw [hm]; exact .ok _
  · unfold Mat.mk2
    by_cases h1 : r < 1
    · simp [h1, Halts]
    · have : c < 1 := by omega
      simp [h1, this, Halts]

/-! ### ends -/

theorem Ends.bind_any {β γ : Type} {f : Nat → Res β} {g : Nat → β → Res γ} {out : Res β} (hf : Ends f out)
    (hg : ∀ a, out = .ok a → ∃ o, Ends (fun n => g n a) o) : ∃ o, Ends (fun n => f n >>= g n) o := by
  obtain ⟨h0, N, hN⟩ := hf
  cases out with
  | ok a =>
    obtain ⟨o, ho⟩ := hg a rfl
    exact ⟨o, Ends.bind ⟨h0, N, hN⟩ ho⟩
  | diverge => exact absurd rfl h0
  | throw e => exact ⟨.throw e, by simp, N, fun n hn => by simp only [hN n hn]; rfl⟩
  | exit c => exact ⟨.exit c, by simp, N, fun n hn => by simp only [hN n hn]; rfl⟩
  | ub => exact ⟨.ub, by simp, N, fun n hn => by simp only [hN n hn]; rfl⟩

/-- A section reader ends, and leaves the stream at the start of one of the lines `ls`, or useless. -/
def Stops {σ : Type} (f : Nat → Res (FR σ)) (ls : List Str) : Prop :=
  ∃ out, Ends f out ∧ ∀ r, out = .ok r → (r.fid.eof = true ∨ r.fid.fail = true) ∨ ∃ ls', ls' <:+ ls ∧ r.fid = openText (unlines ls')

/-- If all section readers stop, so does reading. -/
theorem run_stops {σ : Type} (s : Sections σ) (Good : List Str → Prop) (hsuf : ∀ a b, a <:+ b → Good b → Good a)
    (hread : ∀ l ls tag f, IsLine l → Good (l :: ls) → startSection s.headers l = tag → tag ≠ [] →
      s.readers.get tag = some f → (∀ x ∈ ls, IsLine x) →
        ∀ data, Stops (fun n => f n ⟨openText (unlines ls), some (unlines (l :: ls)), data⟩) ls)
    (ls : List Str) (hl : ∀ l ∈ ls, IsLine l) (hg : Good ls) (d : σ) : ∃ out, Ends (runFrom s (unlines ls) d) out := by
  have key : ∀ n (ls : List Str), ls.length ≤ n → (∀ l ∈ ls, IsLine l) → Good ls → ∀ d, ∃ out, Ends (runFrom s (unlines ls) d) out := by
    intro n
    induction n with
    | zero =>
      intro ls hn _ _ d
      have : ls = [] := List.eq_nil_of_length_eq_zero (by omega)
      subst this
      exact ⟨_, run_end s d⟩
    | succ n ih =>
      intro ls hn hl hg d
      cases ls with
      | nil => exact ⟨_, run_end s d⟩
      | cons l ls =>
        have hline := hl l (by simp)
        have hls : ∀ x ∈ ls, IsLine x := fun x hx => hl x (by simp [hx])
        rw [unlines_cons]
        by_cases ht : startSection s.headers l = []
        · obtain ⟨out, ho⟩ := ih ls (by simp at hn; omega) hls (hsuf ls (l :: ls) (List.suffix_cons _ _) hg) d
          exact ⟨out, run_boring s hline ht ho⟩
        · cases hf : s.readers.get (startSection s.headers l) with
          | none =>
            refine ⟨.ub, Ends.of_le 1 (by simp) (fun fuel => ?_)⟩
            unfold runFrom readLoop
            simp only [getline_line hline]
            rw [if_neg (by simp [openText]), if_pos ht]
            unfold readSection
            rw [hf]
            rfl
          | some f =>
            obtain ⟨out, ho, hr⟩ := hread l ls _ f hline hg rfl ht hf hls d
            obtain ⟨o, hends⟩ := Ends.bind_any (g := continueFrom s) ho (by
              intro r e
              rcases hr r e with hb | ⟨ls', hs', hfid⟩
              · obtain ⟨fid, pos, data⟩ := r
                exact ⟨_, Ends.of_le 1 (by simp) (fun fuel => continueFrom_bad s fuel fid pos data hb)⟩
              · obtain ⟨fid, pos, data⟩ := r
                simp only at hfid
                subst hfid
                have hlen := hs'.length_le
                exact ih ls' (by simp at hn; omega) (fun x hx => hls x (hs'.subset hx))
                  (hsuf ls' (l :: ls) (hs'.trans (List.suffix_cons _ _)) hg) data)
            refine ⟨o, Ends.succ (fun fuel => runFrom_section s hline rfl ht hf (unlines ls) d fuel) ?_⟩
            rw [← unlines_cons]
            exact hends
  exact key ls.length ls (Nat.le_refl _) hl hg d

/-- The state of a loop that reads line by line: the stream is at the start of one of the lines `ls`, or has failed and the last
line read is empty. -/
def AtLine (ls : List Str) (line : Str) (fid : Stream) : Prop :=
  (∃ ls', ls' <:+ ls ∧ fid = openText (unlines ls')) ∨ (fid.fail = true ∧ line = [])

theorem AtLine.stops {ls : List Str} {line : Str} {fid : Stream} (h : AtLine ls line fid) :
    (fid.eof = true ∨ fid.fail = true) ∨ ∃ ls', ls' <:+ ls ∧ fid = openText (unlines ls') := by
  rcases h with h | h
  · exact .inr h
  · exact .inl (.inr h.1)

theorem getline_at {ls : List Str} (hl : ∀ l ∈ ls, IsLine l) (ls' : List Str) (hs : ls' <:+ ls) (prev : Str) :
    (ls' = [] ∧ getline (openText (unlines ls')) prev = ([], ⟨[], true, true⟩)) ∨
      ∃ l r, ls' = l :: r ∧ getline (openText (unlines ls')) prev = (l, openText (unlines r)) := by
  cases ls' with
  | nil => exact .inl ⟨rfl, rfl⟩
  | cons l r =>
    right
    refine ⟨l, r, rfl, ?_⟩
    rw [unlines_cons, getline_line (hl l (hs.subset (by simp)))]

theorem AtLine.getline {ls : List Str} (hl : ∀ l ∈ ls, IsLine l) {line : Str} {fid : Stream} (h : AtLine ls line fid) :
    AtLine ls (getline fid line).1 (getline fid line).2 := by
  rcases h with ⟨ls', hs, rfl⟩ | ⟨hf, rfl⟩
  · rcases getline_at hl ls' hs line with ⟨rfl, e⟩ | ⟨l, r, rfl, e⟩
    · rw [e]; exact .inr ⟨rfl, rfl⟩
    · rw [e]; exact .inl ⟨r, (List.suffix_cons _ _).trans hs, rfl⟩
  · rw [getline_bad (.inr hf)]; exact .inr ⟨rfl, rfl⟩

end Verif.Readers
