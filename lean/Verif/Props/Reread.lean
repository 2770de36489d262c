import Verif.RereadLemmas
/-
C123: `read` called again and again on the same reader.
-/
namespace Verif.Readers
open Strings Log

section pun
variable {α : Type} [Mul α] [Num α] [Zero α]

theorem punReads_eq (name : Str) (hfit : Fits name) (hname : PlainName (lit ".pun") name) (ts : List Str) :
    (fun n => (punReads name ts n : Res (Reader (PunData α)))) = fun n => (Reader.new []).reads punSections name n ts := by
  funext n
  unfold punReads
  rw [((C70_accepted_partial (α := α) name hfit).2.2.1).2 hname]
  rfl

/-- **C123 (punch files, a history).** After the texts have been read one after the other, the getters give what was listed last. -/
theorem C123_pun (name : Str) (hfit : Fits name) (hname : PlainName (lit ".pun") name) (texts : List Str) (ht : ∀ t ∈ texts, Fits t)
    (d : Pun.Known α) (h : Pun.Told texts d) : ∃ r : Reader (PunData α), Ends (fun n => punReads name texts n) (.ok r) ∧ Pun.Gives r.data d := by
  rw [punReads_eq name hfit hname]
  obtain ⟨r, -, h2, h3⟩ := pun_told name h ht
  exact ⟨r, h3, h2.gives⟩

/-- **C123 (punch files, the first text that cannot be read).** It is the same as if nothing had been read before. -/
theorem C123_pun_stops (name : Str) (hfit : Fits name) (hname : PlainName (lit ".pun") name) (texts : List Str) (t : Str) (more : List Str)
    (ht : ∀ u ∈ texts ++ [t], Fits u) (d : Pun.Known α) (h : Pun.Told texts d) :
    (∀ e, Pun.Fails α t 0 e → Ends (fun n => (punReads name (texts ++ t :: more) n : Res (Reader (PunData α)))) (.throw e)) ∧
    (Pun.Endless α t 0 → Hangs (fun n => (punReads name (texts ++ t :: more) n : Res (Reader (PunData α))))) := by
  rw [punReads_eq name hfit hname]
  obtain ⟨r, h1, h2, h3⟩ := pun_told name h (fun u hu => ht u (by simp [hu]))
  have hf := allFit_of (ht t (by simp))
  simp only [Reader.reads_append]
  refine ⟨fun e he => Ends.bind h3 ?_, fun he => ?_⟩
  · exact Ends.bind_fail (g := fun n r => Reader.reads punSections name n r more) (pun_read_fails hf name he r h1)
  · exact Mono.hangs_bind (Reader.reads_mono punSections_mono name texts _) h3
      (Hangs.bind (g := fun n r => Reader.reads punSections name n r more) (pun_read_endless hf name he r h1))

omit [Zero α] in
/-- **C123 (punch files, nothing else can be).** Either all the texts are read or there is a first one that is not. -/
theorem C123_pun_cases (texts : List Str) : (∃ d : Pun.Known α, Pun.Told texts d) ∨ ∃ (a : List Str) (t : Str) (b : List Str) (d : Pun.Known α), texts = a ++ t :: b ∧
    Pun.Told a d ∧ ((∃ e, Pun.Fails α t 0 e) ∨ Pun.Endless α t 0) := by
  induction texts using List.reverseRecOn with
  | nil => exact .inl ⟨_, .nil⟩
  | append_singleton ts t ih =>
    rcases ih with ⟨d, hd⟩ | ⟨a, u, b, d, e, h⟩
    · rcases file_trichotomy t _ 0 d (Nat.le_refl _) with ⟨d', h⟩ | h | h
      · exact .inl ⟨d', .snoc hd h⟩
      · exact .inr ⟨ts, t, [], d, rfl, hd, .inl h⟩
      · exact .inr ⟨ts, t, [], d, rfl, hd, .inr h⟩
    · exact .inr ⟨a, u, b ++ [t], d, by simp [e], h⟩

/-- **C123 (punch files, the same again).** Reading an unchanged file once more makes no difference. -/
theorem C123_pun_again (name : Str) (hfit : Fits name) (hname : PlainName (lit ".pun") name) (t : Str) (ht : Fits t)
    (d : Pun.Known α) (h : Pun.Says t 0 (fun _ => none) d) (n : Nat) :
    ∃ r : Reader (PunData α), Ends (fun k => punReads name (List.replicate (n + 1) t) k) (.ok r) ∧ Pun.Gives r.data d :=
  C123_pun name hfit hname _ (fun u hu => by rw [List.eq_of_mem_replicate hu]; exact ht) d (told_again h n)

/-- Read twice. -/
example : ∃ r : Reader (PunData Int), Ends (fun k => punReads (lit "a.pun") [two, two] k) (.ok r) ∧ ∃ m, r.data.getCoefsMatrix (lit "Alpha") = .ok m ∧ m.getElem2 2 3 = .ok 6 := by
  obtain ⟨r, h1, h2⟩ := C123_pun_again (lit "a.pun") fits_pun name_pun two (by unfold Fits; decide +kernel) _ two_says 1
  obtain ⟨m, h3, -, -, h4⟩ := h2.tables .alpha _ rfl
  exact ⟨r, h1, m, h3, h4 1 (by decide) 2 (by decide)⟩

/-- An empty file does not change anything. -/
example : Pun.Told (α := Int) [two, []] (fun s => if s = .alpha then some [[(1 : Int), 2, 3], [4, 5, 6]] else none) :=
  .snoc (ts := [two]) (.snoc (ts := []) .nil two_says) (.done (.inr ⟨rfl, rfl⟩))

end pun

/-- **C123 (after an exception).** If there is no such file the reader is as it was. Otherwise its file stays open: the next call of `read`,
whatever the file contains by then, reads nothing and returns normally; the one after it is like any other. -/
theorem C123_failed {σ : Type} (s : Sections σ) (fs : Str → Option Str) (name : Str) (r r' : Reader σ) (h : Reader.Left fs name r r') :
    (fs name = none → r' = r) ∧ (∀ text, fs name = some text → ∀ (fs' : Str → Option Str) (text' : Str), fs' name = some text' → ∀ fuel,
      r'.read s fs' name fuel = .ok { r' with isOpen := false }) := by
  unfold Reader.Left at h
  refine ⟨fun e => by rwa [if_pos e] at h, fun text e fs' text' e' fuel => ?_⟩
  rw [if_neg (by rw [e]; simp)] at h
  unfold Reader.read
  rw [e']
  simp only [h, if_true]

end Verif.Readers

namespace Verif.LogLines
open Strings Log Readers
open Pun (NoLine)

variable {α : Type} [Mul α] [Num α] [Zero α]

theorem logReads_eq (name : Str) (hfit : Fits name) (hname : PlainName (lit ".log") name) (ts : List Str) :
    (fun n => (logReads name ts n : Res (Reader (LogData α)))) = fun n => (Reader.new LogData.empty).reads logSections name n ts := by
  funext n
  unfold logReads
  rw [((C70_accepted_partial (α := α) name hfit).1).2 hname]
  rfl

/-- **C123 (log files, a history).** After the texts have been read one after the other, the getters give what is known. -/
theorem C123_log (name : Str) (hfit : Fits name) (hname : PlainName (lit ".log") name) (texts : List Str) (ht : ∀ t ∈ texts, Fits t)
    (d : Known α) (h : Told texts d) : ∃ r : Reader (LogData α), Ends (fun n => logReads name texts n) (.ok r) ∧ Gives r.data d := by
  rw [logReads_eq name hfit hname]
  obtain ⟨r, h2, h3⟩ := log_told name h ht
  exact ⟨r, h3, h2.holds.gives⟩

theorem goOn_out {t : Str} {p : Option Nat} {D : LogData α} {x : Fault} (name : Str) (h : Ends (fun n => goOn n ⟨openText t, p.map (t.drop ·), D⟩ []) x.out) :
    Ends (fun n => Reader.read logSections (fun _ => some t) name n ⟨false, p, D⟩) x.out := by
  obtain ⟨h0, N, hN⟩ := h
  refine ⟨by cases x <;> simp [Fault.out], N, fun n hn => ?_⟩
  have := hN n hn
  simp only [goOn] at this
  show Reader.read _ _ _ _ _ = _
  rw [Reader.read_text]
  cases hx : readLoop logSections n ⟨openText t, p.map (t.drop ·), D⟩ [] <;> rw [hx] at this <;> cases x <;> cases this <;> rfl

/-- **C123 (log files, the first text that cannot be read).** It is the same as if nothing had been read before. -/
theorem C123_log_stops (name : Str) (hfit : Fits name) (hname : PlainName (lit ".log") name) (texts : List Str) (t : Str) (more : List Str)
    (ht : ∀ u ∈ texts ++ [t], Fits u) (d : Known α) (h : Told texts d) (he : texts = [] ∨ ¬ StartsWithEnergies t) :
    (∀ x, Fails α t 0 x → Ends (fun n => (logReads name (texts ++ t :: more) n : Res (Reader (LogData α)))) x.out) ∧
    (Endless α t 0 → Hangs (fun n => (logReads name (texts ++ t :: more) n : Res (Reader (LogData α))))) := by
  rw [logReads_eq name hfit hname]
  obtain ⟨⟨o, p, D⟩, h1, h3⟩ := log_told name h (fun u hu => ht u (by simp [hu]))
  obtain rfl : o = false := h1.closed
  have hf := allFit_of (ht t (by simp))
  have key : ∀ n, goOn n ⟨openText t, p.map (t.drop ·), D⟩ [] = goOn n ⟨openText t, some t, D⟩ [] := by
    intro n
    rcases he with rfl | he
    · have := h1.new rfl
      simp only [] at this
      rw [this]
      rfl
    · exact goOn_stale he _ _ D [] n
  simp only [Reader.reads_append]
  refine ⟨fun x hx => Ends.bind h3 ?_, fun hx => ?_⟩
  · obtain ⟨N, hN⟩ := goOn_fails hf hx ⟨openText t, some t, D⟩ [] d (here_start t) h1.holds
    have := goOn_out (p := p) name ⟨by cases x <;> simp [Fault.out], N, fun n hn => (key n).trans (hN n hn)⟩
    obtain ⟨h0, N, hN⟩ := this
    refine ⟨h0, N, fun n hn => ?_⟩
    have := hN n hn
    show (Reader.read _ _ _ _ _ >>= fun r => Reader.reads logSections name n r more) = _
    simp only [] at this
    rw [this]
    cases x <;> rfl
  · refine Mono.hangs_bind (Reader.reads_mono logSections_mono name texts _) h3
      (Hangs.bind (g := fun n r => Reader.reads logSections name n r more) ?_)
    intro n
    have := (key n).trans (goOn_endless hf hx ⟨openText t, some t, D⟩ [] d (here_start t) h1.holds n)
    unfold goOn at this
    show Reader.read _ _ _ _ _ = _
    rw [Reader.read_text]
    cases hx : readLoop logSections n ⟨openText t, p.map (t.drop ·), D⟩ [] <;> rw [hx] at this <;> cases this <;> rfl

/-- **C123 (log files, nothing else can be).** If no text starts with energies, except the first one and texts that are not longer than the one before:
either all the texts are read or there is a first one that is not, as in `C123_log_stops`. -/
theorem C123_log_cases (texts : List Str) (hl : NoLonger texts) : (∃ d : Known α, Told texts d) ∨
    ∃ (a : List Str) (t : Str) (b : List Str) (d : Known α), texts = a ++ t :: b ∧ Told a d ∧ (a = [] ∨ ¬ StartsWithEnergies t) ∧
      ((∃ x, Fails α t 0 x) ∨ Endless α t 0) := by
  induction texts using List.reverseRecOn with
  | nil => exact .inl ⟨_, .nil⟩
  | append_singleton ts t ih =>
    rcases ih (fun a u v b e => hl a u v (b ++ [t]) (by simp [e])) with ⟨d, hd⟩ | ⟨a, u, b, d, e, h⟩
    · by_cases he : ts = [] ∨ ¬ StartsWithEnergies t
      · rcases file_trichotomy t _ 0 d (Nat.le_refl _) with ⟨d', h⟩ | h | h
        · refine .inl ⟨d', ?_⟩
          rcases he with rfl | he
          · have : d = nothing := by
              generalize hn : ([] : List Str) = ts at hd
              cases hd with
              | nil => rfl
              | first _ => cases hn
              | plain _ _ _ => simp at hn
              | lost _ _ _ _ _ => simp at hn
            subst this
            exact .first h
          · exact .plain hd he h
        · exact .inr ⟨ts, t, [], d, rfl, hd, he, .inl h⟩
        · exact .inr ⟨ts, t, [], d, rfl, hd, he, .inr h⟩
      · have hne : ts ≠ [] := fun e => he (.inl e)
        have hs : StartsWithEnergies t := Classical.byContradiction fun e => he (.inr e)
        obtain ⟨hn, spin, ha⟩ := id hs
        have e : ts = ts.dropLast ++ [ts.getLast hne] := (List.dropLast_append_getLast hne).symm
        obtain ⟨h1, h2⟩ := hl ts.dropLast (ts.getLast hne) t [] (by
          have : ts ++ [t] = (ts.dropLast ++ [ts.getLast hne]) ++ [t] := by rw [← e]
          rw [this]; simp) hs
        rw [e] at hd
        refine .inl ⟨lose spin d, ?_⟩
        have e2 : ts ++ [t] = ts.dropLast ++ [ts.getLast hne, t] := by
          have : ts ++ [t] = (ts.dropLast ++ [ts.getLast hne]) ++ [t] := by rw [← e]
          rw [this]; simp
        rw [e2]
        exact .lost hd h1 h2 hn ha
    · exact .inr ⟨a, u, b ++ [t], d, by simp [e], h⟩

/-! ### the same file again -/

/-- What a text says, when something else is known before. -/
structure Onto (d0 d1 d d' : Known α) : Prop where
  coords : d'.coords = d1.coords ∨ (d1.coords = d0.coords ∧ d'.coords = d.coords)
  energies : ∀ s, d'.energies s = d1.energies s ∨ (d1.energies s = d0.energies s ∧ d'.energies s = d.energies s)
  overlap : d'.overlap = d1.overlap ∨ (d1.overlap = d0.overlap ∧ d'.overlap = d.overlap)
  functions : ∃ fs, d1.functions = d0.functions ++ fs ∧ d'.functions = d.functions ++ fs

omit [Zero α] in
theorem says_onto {t : Str} {i : Nat} {d0 d1 : Known α} (h : Says t i d0 d1) : ∀ d, ∃ d', Says t i d d' ∧ Onto d0 d1 d d' := by
  induction h with
  | done hn => exact fun d => ⟨d, .done hn, .inr ⟨rfl, rfl⟩, fun s => .inr ⟨rfl, rfl⟩, .inr ⟨rfl, rfl⟩, [], by simp, by simp⟩
  | skip hn ha _ ih =>
    intro d
    obtain ⟨d', h1, h2⟩ := ih d
    exact ⟨d', .skip hn ha h1, h2⟩
  | @table i k f e d0 d1 hn ha ht _ ih =>
    intro d
    obtain ⟨d', h1, h2⟩ := ih (f d)
    refine ⟨d', .table hn ha ht h1, ?_⟩
    cases ht with
    | coords _ _ =>
      refine ⟨h2.coords.elim .inl fun h => .inl (h.2.trans h.1.symm), h2.energies, h2.overlap, h2.functions⟩
    | @energies spin k _ _ =>
      refine ⟨h2.coords, fun s => ?_, h2.overlap, h2.functions⟩
      rcases h2.energies s with h | ⟨h3, h4⟩
      · exact .inl h
      · dsimp only at h3 h4
        by_cases hs : s = spin
        · rw [if_pos hs] at h3 h4
          exact .inl (h4.trans h3.symm)
        · rw [if_neg hs] at h3 h4
          exact .inr ⟨h3, h4⟩
    | overlap _ => refine ⟨h2.coords, h2.energies, h2.overlap.elim .inl fun h => .inl (h.2.trans h.1.symm), h2.functions⟩
    | @population fs e _ =>
      obtain ⟨gs, h3, h4⟩ := h2.functions
      exact ⟨h2.coords, h2.energies, h2.overlap, fs ++ gs, by rw [h3]; simp, by rw [h4]; simp⟩

omit [Mul α] [Num α] in
theorem counts_same {fs gs : List ((Nat × Str) × Str)} (h : ∀ x, x ∈ fs ↔ x ∈ gs) {counts : List Int} (hc : Counts fs counts) : Counts gs counts := by
  obtain ⟨table, h1, h2, h3, h4⟩ := hc
  exact ⟨table, h1, h2, fun k l => (h (k, l)).symm.trans (h3 k l), h4⟩

omit [Mul α] [Num α] in
theorem Gives.same {D : LogData α} {d : Known α} {fs : List ((Nat × Str) × Str)} (h : Gives D { d with functions := fs })
    (he : ∀ x, x ∈ fs ↔ x ∈ d.functions) : Gives D d :=
  ⟨h.coords, h.energies, h.homo, h.overlap, counts_same he h.functions⟩

omit [Zero α] in
theorem told_log_again {t : Str} (he : ¬ StartsWithEnergies t) {d : Known α} (h : Says t 0 nothing d) : ∀ n,
    ∃ fs, (∀ x, x ∈ fs ↔ x ∈ d.functions) ∧ Told (List.replicate (n + 1) t) { d with functions := fs } := by
  intro n
  induction n with
  | zero => exact ⟨d.functions, fun x => Iff.rfl, .first h⟩
  | succ n ih =>
    obtain ⟨fs, h1, h2⟩ := ih
    obtain ⟨d', h3, h4⟩ := says_onto h { d with functions := fs }
    obtain ⟨gs, h5, h6⟩ := h4.functions
    refine ⟨fs ++ gs, fun x => ?_, ?_⟩
    · have h5' : d.functions = gs := by simpa [nothing] using h5
      rw [h5', List.mem_append, h1, h5', or_self]
    · rw [List.replicate_succ']
      refine .plain h2 he ?_
      have : d' = { d with functions := fs ++ gs } := by
        have e1 : d'.coords = d.coords := h4.coords.elim id (·.2)
        have e2 : d'.energies = d.energies := funext fun s => (h4.energies s).elim id (·.2)
        have e3 : d'.overlap = d.overlap := h4.overlap.elim id (·.2)
        cases d'
        simp_all
      exact this ▸ h3

/-- **C123 (log files, the same again).** Reading an unchanged file once more makes no difference, unless its first line announces energies. -/
theorem C123_log_again (name : Str) (hfit : Fits name) (hname : PlainName (lit ".log") name) (t : Str) (ht : Fits t) (he : ¬ StartsWithEnergies t)
    (d : Known α) (h : Says t 0 nothing d) (n : Nat) :
    ∃ r : Reader (LogData α), Ends (fun k => logReads name (List.replicate (n + 1) t) k) (.ok r) ∧ Gives r.data d := by
  obtain ⟨fs, h1, h2⟩ := told_log_again he h n
  obtain ⟨r, h3, h4⟩ := C123_log name hfit hname _ (fun u hu => by rw [List.eq_of_mem_replicate hu]; exact ht) _ h2
  exact ⟨r, h3, h4.same h1⟩

omit [Zero α] in
theorem told_log_lost {t : Str} (hn : ¬ NoLine t 0) {spin : Spin} (ha : Announces (lineAt t 0) (.energies spin)) {d : Known α} (h : Says t 0 nothing d) : ∀ n,
    Told (List.replicate (n + 2) t) (lose spin d) := by
  have h0 : t ≠ [] := by
    rintro rfl
    exact hn (.inr ⟨rfl, rfl⟩)
  intro n
  induction n with
  | zero => exact Told.lost (ts := []) (.first h) h0 (Nat.le_refl _) hn ha
  | succ n ih =>
    have e : List.replicate (n + 1 + 2) t = List.replicate (n + 1) t ++ [t, t] := by
      rw [← List.replicate_append_replicate]
      rfl
    have e2 : lose spin (lose spin d) = lose spin d := by
      unfold lose
      simp only []
      congr 1
      funext s
      split <;> rfl
    rw [e, ← e2]
    refine .lost ?_ h0 (Nat.le_refl _) hn ha
    rw [← List.replicate_succ']
    exact ih

/-- **C123 (log files that start with energies).** If the first line of a file announces energies, and the unchanged file is read again, these
energies are lost: the getters give an empty list and no occupied orbital. Everything else stays. -/
theorem C123_log_lost (name : Str) (hfit : Fits name) (hname : PlainName (lit ".log") name) (t : Str) (ht : Fits t) (hn : ¬ NoLine t 0)
    (spin : Spin) (ha : Announces (lineAt t 0) (.energies spin)) (d : Known α) (h : Says t 0 nothing d) (n : Nat) :
    ∃ r : Reader (LogData α), Ends (fun k => logReads name (List.replicate (n + 2) t) k) (.ok r) ∧ Gives r.data (lose spin d) :=
  C123_log name hfit hname _ (fun u hu => by rw [List.eq_of_mem_replicate hu]; exact ht) _ (told_log_lost hn ha h n)

/-! ### examples -/

example : ∃ r : Reader (LogData Int), Ends (fun k => logReads (lit "a.log") [four, four, four] k) (.ok r) ∧ r.data.getCoords = [[4], [5], [6]] ∧
    r.data.getOE (lit "Alpha") = .ok [-2, -1, 3] := by
  obtain ⟨r, h1, h2⟩ := C123_log_again (lit "a.log") fits_log name_log four (by unfold Fits; decide +kernel) (by
    rintro ⟨-, spin, a, b, e, h, h'⟩
    cases spin
    · exact not_contains_of (p := (lit " Alpha  occ. eigenvalues --")) (l := lineAt four 0) (by decide +kernel) h
    · exact not_contains_of (p := (lit "  Beta  occ. eigenvalues --")) (l := lineAt four 0) (by decide +kernel) h) _ four_says 2
  exact ⟨r, h1, h2.coords, h2.energies .alpha⟩

/-- Nothing but energies. -/
private def energies : Str := (lit " Alpha  occ. eigenvalues --  7\n")

private theorem energies_says : ∃ n, Says energies 0 nothing { (nothing : Known Int) with energies := fun s => if s = .alpha then some ([7], n) else none } := by
  have e3 : (energiesOn energies 0 1 : List Int) = [7] := by decide +kernel
  have h := Table.energies (α := Int) (t := energies) (i := 0) (spin := .alpha) (k := 1) (by omega) ⟨fun j hj => by
    obtain rfl : j = 0 := by omega
    exact ⟨by unfold NoLine; decide +kernel, .inl (contains_of (by decide +kernel))⟩, .inl (by unfold NoLine; decide +kernel)⟩
  rw [e3] at h
  exact ⟨_, .table (by unfold NoLine; decide +kernel) (announces_alpha (by decide +kernel) (by decide +kernel) (by decide +kernel) (by decide +kernel)) h (.done (by unfold NoLine; decide +kernel))⟩

/-- After the first call there is an energy, after the second there is none. -/
example : (∃ r : Reader (LogData Int), Ends (fun k => logReads (lit "a.log") [energies] k) (.ok r) ∧ r.data.getOE (lit "Alpha") = .ok [7]) ∧
    ∃ r : Reader (LogData Int), Ends (fun k => logReads (lit "a.log") [energies, energies] k) (.ok r) ∧ r.data.getOE (lit "Alpha") = .ok [] := by
  obtain ⟨n, h⟩ := energies_says
  have hf : Fits energies := by unfold Fits; decide +kernel
  obtain ⟨r, h1, h2⟩ := C123_log (lit "a.log") fits_log name_log [energies] (fun t ht => by rw [List.mem_singleton.1 ht]; exact hf) _ (.first h)
  obtain ⟨r', h3, h4⟩ := C123_log_lost (lit "a.log") fits_log name_log energies hf (by unfold NoLine; decide +kernel) .alpha
    (announces_alpha (by decide +kernel) (by decide +kernel) (by decide +kernel) (by decide +kernel)) _ h 0
  exact ⟨⟨r, h1, h2.energies .alpha⟩, r', h3, h4.energies .alpha⟩

end Verif.LogLines
