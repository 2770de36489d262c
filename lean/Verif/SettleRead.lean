import Verif.SettleLog
/-
How many passes reading a whole file can take.
-/
namespace Verif.Readers
open Strings Log Pun

section
variable {σ : Type} (s : Sections σ)

/-- One pass of the reading loop, from a line on. -/
def afterLine (n : Nat) (r : FR σ) (line : Str) : Res (FR σ) :=
  (if startSection s.headers line ≠ [] then readSection s n (startSection s.headers line) r else .ok r) >>= fun r =>
    readLoop s n { r with fid := (tellg r.fid).2, pos := (tellg r.fid).1 } line

theorem readLoop_pass (r : FR σ) (prev : Str) (n : Nat) :
    readLoop s (n + 1) r prev = if (getline r.fid prev).2.fail then .ok { r with fid := (getline r.fid prev).2 }
      else afterLine s n { r with fid := (getline r.fid prev).2 } (getline r.fid prev).1 := by
  rw [readLoop]
  unfold afterLine
  dsimp only
  split
  · rfl
  · split <;> rfl

theorem tellg_room (f : Stream) : room (tellg f).2 = room f := by
  unfold tellg
  split
  · rename_i h
    rw [room_bad (fail_not_good f), room_bad (not_good.2 (by simpa using h))]
  · rfl

theorem tellg_good (f : Stream) (h : Fine (tellg f).2) : (tellg f).1 = some (tellg f).2.text := by
  unfold tellg at h ⊢
  split
  · rename_i hc
    rw [if_pos hc] at h
    exact absurd h (fail_not_good f)
  · rfl

/-- A section, announced by a line of a text of length below `L`, takes at most `C` passes and does not go back, or the
announcement is read again for ever. -/
def SectionsSettle (L C : Nat) : Prop := ∀ (t0 prev : Str) (d : σ) (f : SectionReader σ), t0.length + 1 ≤ L →
  (getline (openText t0) prev).2.fail = false → startSection s.headers (getline (openText t0) prev).1 ≠ [] →
  s.readers.get (startSection s.headers (getline (openText t0) prev).1) = some f →
  (Settled C (fun n => f n ⟨(getline (openText t0) prev).2, some t0, d⟩) ∧
    ∀ n r', f n ⟨(getline (openText t0) prev).2, some t0, d⟩ = .ok r' → room r'.fid ≤ room (getline (openText t0) prev).2) ∨
  (∀ n prev d, readLoop s n ⟨openText t0, some t0, d⟩ prev = .diverge)

theorem readLoop_settled {L C : Nat} (hs : SectionsSettle s L C) : ∀ (k : Nat) (r : FR σ) (prev : Str), room r.fid ≤ k → k ≤ L →
    (Fine r.fid → r.pos = some r.fid.text) → Settled (k + C + 1) (fun n => readLoop s n r prev) := by
  have bad : ∀ (r : FR σ) (prev : Str), ¬ Fine r.fid → Settled 1 (fun n => readLoop s n r prev) := by
    intro r prev hg
    refine settled_now (x := .ok { r with fid := (getline r.fid prev).2 }) (fun n => ?_) 0
    rw [readLoop_pass, if_pos (by rw [getline_not_good hg])]
  intro k
  induction k with
  | zero =>
    intro r prev hk _ _
    exact (bad r prev (fun h => by rw [room_good h] at hk; omega)).mono (by omega)
  | succ k ih =>
    intro r prev hk hL hp
    by_cases hg : Fine r.fid
    · obtain ⟨fid, pos, d⟩ := r
      have hp := hp hg
      simp only at hp hg hk
      have ho := hg.open
      rw [ho] at hk hg ⊢
      subst hp
      generalize fid.text = t0 at hk hg ⊢
      have hr := getline_room hg prev
      cases hf : (getline (openText t0) prev).2.fail with
      | true =>
        exact settled_now (x := .ok ⟨(getline (openText t0) prev).2, some t0, d⟩) (fun n => by rw [readLoop_pass, if_pos hf]) _
      | false =>
        have next : ∀ (r : FR σ) (l : Str), room r.fid ≤ room (getline (openText t0) prev).2 →
            Settled (k + C + 1) (fun n => readLoop s n { r with fid := (tellg r.fid).2, pos := (tellg r.fid).1 } l) := by
          intro r l h
          refine ih _ _ ?_ (by omega) (tellg_good r.fid)
          show room (tellg r.fid).2 ≤ k
          rw [tellg_room]; omega
        have pass : ∀ n, readLoop s (n + 1) ⟨openText t0, some t0, d⟩ prev =
            afterLine s n ⟨(getline (openText t0) prev).2, some t0, d⟩ (getline (openText t0) prev).1 := by
          intro n
          rw [readLoop_pass, if_neg (by simp [hf])]
        have e : k + 1 + C + 1 = (k + C + 1) + 1 := by omega
        by_cases ht : startSection s.headers (getline (openText t0) prev).1 ≠ []
        · cases hgt : s.readers.get (startSection s.headers (getline (openText t0) prev).1) with
          | none =>
            rw [e]
            refine Settled.succ pass (Settled.const .ub _ |>.congr fun n => ?_)
            unfold afterLine readSection
            rw [if_pos ht, hgt]
            rfl
          | some f =>
            rcases hs t0 prev d f (by rw [room_good hg] at hk; simp only [openText] at hk; omega) hf ht hgt with ⟨h1, h2⟩ | h
            · rw [e]
              refine Settled.succ pass ?_
              unfold afterLine readSection
              simp only [if_pos ht, hgt]
              exact Settled.bind (h1.mono (by omega)) fun r hr' => next r _ (h2 _ _ hr')
            · exact Hangs.settled (fun n => h n prev d) _
        · rw [e]
          refine Settled.succ pass ?_
          unfold afterLine
          simp only [if_neg ht]
          exact next ⟨(getline (openText t0) prev).2, some t0, d⟩ _ (Nat.le_refl _)
    · exact (bad r prev hg).mono (by omega)

theorem read_settled {L C : Nat} (hs : SectionsSettle s L C) (fs : Str → Option Str) (name : Str) (d : σ)
    (h : ∀ text, fs name = some text → text.length + 1 ≤ L) : Settled (L + C + 1) (fun n => read s fs name n d) := by
  unfold read
  cases hf : fs name with
  | none => exact Settled.const _ _
  | some text =>
    have := h text hf
    refine Settled.bind (readLoop_settled s hs L _ _ ?_ (Nat.le_refl _) (fun _ => rfl)) fun _ _ => Settled.const _ _
    show room (openText text) ≤ L
    rw [room_good ⟨rfl, rfl⟩]
    exact this

end

section
variable {α : Type} [Mul α] [Num α]

theorem readCoef_settled {t : Str} (ht : t ≠ []) {L : Nat} (r : FR (PunData α)) (h : room r.fid ≤ L) :
    Settled (L + L + 2) (fun n => readCoef t n r) ∧ ∀ n r', readCoef t n r = .ok r' → room r'.fid ≤ room r.fid := by
  constructor
  · unfold readCoef
    refine Settled.bind (coefLoop_settled ht L L false 0 r.fid [] h (by omega)) fun x _ => Settled.const _ _
  · intro n r' e
    unfold readCoef at e
    obtain ⟨⟨fid, v⟩, e1, e⟩ := Res.bind_eq_ok.1 e
    obtain ⟨m, -, e⟩ := Res.bind_eq_ok.1 e
    cases e
    exact coefLoop_room _ _ _ _ _ _ _ _ e1

theorem pun_settle (L : Nat) : SectionsSettle (punSections : Sections (PunData α)) L (L + L + 2) := by
  intro t0 prev d f hL hf ht hg
  left
  have hr : room (getline (openText t0) prev).2 ≤ L := by
    have := getline_room (s := openText t0) ⟨rfl, rfl⟩ prev
    rw [room_good (s := openText t0) ⟨rfl, rfl⟩] at this
    simp only [openText] at this ⊢
    omega
  have hm := Map.get_mem hg
  simp only [punSections, List.mem_cons, List.not_mem_nil, or_false, Prod.mk.injEq] at hm
  rcases hm with ⟨-, rfl⟩ | ⟨-, rfl⟩
  · exact readCoef_settled (by simp) _ hr
  · exact readCoef_settled (by simp) _ hr

variable [Zero α]

/-! ### energies -/

/-- Is this a line of energies? -/
def isEnergies (spin line : Str) : Bool :=
  foundSubStrInStr line ((lit " ") ++ spin ++ (lit "  occ. eigenvalues -- ")) ||
  foundSubStrInStr line ((lit " ") ++ spin ++ (lit " virt. eigenvalues -- "))

theorem energiesLoop_pass (t : Str) (r : FR (LogData α)) (prev : Str) (n : Nat) :
    energiesLoop t (n + 1) r prev = if (getline r.fid prev).2.fail then .ok { r with fid := (getline r.fid prev).2 }
      else if isEnergies t (getline r.fid prev).1 then
        splitStEnergies (getline r.fid prev).1 >>= fun v =>
          energiesLoop t n ⟨(tellg (getline r.fid prev).2).2, (tellg (getline r.fid prev).2).1,
            pushEnergies t (foundSubStrInStr (getline r.fid prev).1 ((lit " ") ++ t ++ (lit "  occ. eigenvalues -- "))) (v.drop 4) r.data⟩ (getline r.fid prev).1
      else .ok { r with fid := (getline r.fid prev).2 } := rfl

theorem energiesLoop_settled (t : Str) : ∀ (k : Nat) (r : FR (LogData α)) (prev : Str), room r.fid ≤ k →
    Settled (k + 1) (fun n => energiesLoop t n r prev) := by
  have bad : ∀ (r : FR (LogData α)) (prev : Str), ¬ Fine r.fid → Settled 1 (fun n => energiesLoop t n r prev) := by
    intro r prev hg
    refine settled_now (x := .ok { r with fid := (getline r.fid prev).2 }) (fun n => ?_) 0
    rw [energiesLoop_pass, if_pos (by rw [getline_not_good hg])]
  intro k
  induction k with
  | zero =>
    intro r prev hk
    exact bad r prev (fun h => by rw [room_good h] at hk; omega)
  | succ k ih =>
    intro r prev hk
    by_cases hg : Fine r.fid
    · have hr := getline_room hg prev
      refine Settled.succ (energiesLoop_pass t r prev) ?_
      refine Settled.ite (fun _ => Settled.const _ _) fun _ => Settled.ite (fun _ => ?_) fun _ => Settled.const _ _
      refine Settled.bind (Settled.const _ _) fun v _ => ih _ _ ?_
      show room (tellg (getline r.fid prev).2).2 ≤ k
      rw [tellg_room]; omega
    · exact (bad r prev hg).mono (by omega)

/-- The loop leaves a position that is not before the one it began with. -/
theorem energiesLoop_pos (t : Str) : ∀ (n : Nat) (r : FR (LogData α)) (prev : Str) (r' : FR (LogData α)), energiesLoop t n r prev = .ok r' →
    ∀ K, (∀ p, r.pos = some p → p.length + 1 ≤ K) → room r.fid ≤ K → ∀ p, r'.pos = some p → p.length + 1 ≤ K
  | 0, _, _, _, h => by cases h
  | n + 1, r, prev, r', h => by
    intro K hp hr
    rw [energiesLoop_pass] at h
    split at h
    · cases h; exact hp
    · split at h
      · obtain ⟨v, -, h⟩ := Res.bind_eq_ok.1 h
        have h1 := room_getline r.fid prev
        refine energiesLoop_pos t n _ _ _ h K ?_ ?_
        · intro p hp
          simp only at hp
          have : Fine (tellg (getline r.fid prev).2).2 := by
            unfold tellg at hp ⊢
            split at hp
            · cases hp
            · rename_i hb
              rw [if_neg hb]
              exact Classical.byContradiction fun hn => hb (by simpa using not_good.1 hn)
          have e := tellg_good _ this
          rw [e] at hp
          cases hp
          have := room_good this
          rw [tellg_room] at this
          omega
        · show room (tellg (getline r.fid prev).2).2 ≤ K
          rw [tellg_room]; omega
      · cases h; exact hp

theorem room_seekg (f : Stream) (pos : Option Str) (K : Nat) (h : ∀ p, pos = some p → p.length + 1 ≤ K) : room (seekg f pos) ≤ K := by
  unfold seekg
  split
  · rename_i hf
    rw [room_bad (fun h => by have := h.2; simp [hf] at this)]; omega
  · cases pos with
    | none => rw [room_bad (fun h => by cases h.2)]; omega
    | some p =>
      rw [room_good ⟨rfl, rfl⟩]
      exact h p rfl

/-- The reader of energies, entered from the line that announces them. -/
theorem energies_settled (t : Str) (L : Nat) (t0 prev : Str) (d : LogData α) (hL : t0.length + 1 ≤ L)
    (hf : (getline (openText t0) prev).2.fail = false) (he : isEnergies t (getline (openText t0) prev).1 = true) :
    Settled (L + 1) (fun n => readOrbEnergies t n ⟨seekg (getline (openText t0) prev).2 (some t0), some t0, d⟩) ∧
    ∀ n r', readOrbEnergies t n ⟨seekg (getline (openText t0) prev).2 (some t0), some t0, d⟩ = .ok r' →
      room r'.fid ≤ room (getline (openText t0) prev).2 := by
  have hsk : seekg (getline (openText t0) prev).2 (some t0) = openText t0 := by
    unfold seekg
    rw [if_neg (by simp [hf])]
    rfl
  rw [hsk]
  have hg : Fine (openText t0) := ⟨rfl, rfl⟩
  constructor
  · unfold readOrbEnergies
    refine Settled.bind (energiesLoop_settled t L _ _ ?_) fun _ _ => Settled.const _ _
    show room (openText t0) ≤ L
    rw [room_good hg]
    exact hL
  · intro n r' e
    unfold readOrbEnergies at e
    obtain ⟨r1, e1, e⟩ := Res.bind_eq_ok.1 e
    cases e
    refine room_seekg _ _ _ ?_
    cases n with
    | zero => cases e1
    | succ n =>
      rw [energiesLoop_pass] at e1
      dsimp only at e1
      rw [getline_prev t0 prev] at he hf ⊢
      rw [if_neg (by simp [hf]), if_pos he] at e1
      obtain ⟨v, -, e1⟩ := Res.bind_eq_ok.1 e1
      refine energiesLoop_pos t n _ _ _ e1 _ ?_ (by show room (tellg _).2 ≤ _; rw [tellg_room]; exact Nat.le_refl _)
      intro p hp
      simp only at hp
      generalize (getline (openText t0) []).2 = fid at hp
      have : Fine fid := by
        unfold tellg at hp
        split at hp
        · cases hp
        · rename_i hb
          exact Classical.byContradiction fun hn => hb (by simpa using not_good.1 hn)
      unfold tellg at hp
      rw [if_neg (by simp [this.1, this.2])] at hp
      cases hp
      rw [room_good this]
      exact Nat.le_refl _

/-- An announcement of energies that is no line of energies is read again for ever. -/
theorem energies_again (t : Str) (f : SectionReader (LogData α))
    (hfe : ∀ n r, f n r = readOrbEnergies t n { r with fid := seekg r.fid r.pos }) (t0 : Str)
    (hf : (getline (openText t0) []).2.fail = false)
    (ht : startSection (logSections (α := α)).headers (getline (openText t0) []).1 ≠ [])
    (hg : (logSections (α := α)).readers.get (startSection (logSections (α := α)).headers (getline (openText t0) []).1) = some f)
    (he : isEnergies t (getline (openText t0) []).1 = false) :
    ∀ n prev (d : LogData α), readLoop (logSections (α := α)) n ⟨openText t0, some t0, d⟩ prev = .diverge
  | 0, _, _ => rfl
  | n + 1, prev, d => by
    rw [readLoop_pass]
    dsimp only
    rw [getline_prev t0 prev, if_neg (by simp [hf])]
    unfold afterLine readSection
    rw [if_pos ht, hg]
    dsimp only
    rw [hfe]
    dsimp only
    have hsk : seekg (getline (openText t0) []).2 (some t0) = openText t0 := by
      unfold seekg
      rw [if_neg (by simp [hf])]
      rfl
    rw [hsk]
    unfold readOrbEnergies
    cases n with
    | zero => rfl
    | succ n =>
      dsimp only
      rw [energiesLoop_pass]
      dsimp only
      rw [if_neg (by simp [hf]), if_neg (by simp [he])]
      simp only [Res.ok_bind]
      rw [hsk]
      exact energies_again t f hfe t0 hf ht hg he (n + 1) _ _

theorem log_settle (L : Nat) : SectionsSettle (logSections : Sections (LogData α)) L (L + 3) := by
  intro t0 prev d f hL hf ht hg
  have hr : room (getline (openText t0) prev).2 ≤ L := by
    have := getline_room (s := openText t0) ⟨rfl, rfl⟩ prev
    rw [room_good (s := openText t0) ⟨rfl, rfl⟩] at this
    simp only [openText] at this ⊢
    omega
  have en : ∀ (t : Str), (∀ n (r : FR (LogData α)), f n r = readOrbEnergies t n { r with fid := seekg r.fid r.pos }) →
      (Settled (L + 3) (fun n => f n ⟨(getline (openText t0) prev).2, some t0, d⟩) ∧
        ∀ n r', f n ⟨(getline (openText t0) prev).2, some t0, d⟩ = .ok r' → room r'.fid ≤ room (getline (openText t0) prev).2) ∨
      (∀ n prev (d : LogData α), readLoop (logSections (α := α)) n ⟨openText t0, some t0, d⟩ prev = .diverge) := by
    intro t hfe
    cases he : isEnergies t (getline (openText t0) prev).1 with
    | true =>
      left
      obtain ⟨h1, h2⟩ := energies_settled t L t0 prev d hL hf he
      exact ⟨(h1.congr fun n => hfe n _).mono (by omega), fun n r' e => h2 n r' ((hfe n _).symm.trans e)⟩
    | false =>
      right
      rw [getline_prev t0 prev] at hf ht hg he
      exact energies_again t f hfe t0 hf ht hg he
  have hm := Map.get_mem hg
  simp only [logSections, List.mem_cons, List.not_mem_nil, or_false, Prod.mk.injEq] at hm
  rcases hm with ⟨-, rfl⟩ | ⟨-, rfl⟩ | ⟨-, rfl⟩ | ⟨-, rfl⟩ | ⟨-, rfl⟩
  · left
    have h1 := room_getline (getline (openText t0) prev).2 []
    have h2 := room_getline (getline (getline (openText t0) prev).2 []).2 (getline (getline (openText t0) prev).2 []).1
    refine ⟨aoAtoms_settled L 1 _ _ (Nat.le_trans h2 (Nat.le_trans h1 hr)), fun n r' e => ?_⟩
    exact Nat.le_trans (aoAtoms_room n _ _ _ _ e) (Nat.le_trans h2 h1)
  · left
    have h1 := room_getline (getline (openText t0) prev).2 []
    have h2 := room_getline (getline (getline (openText t0) prev).2 []).2 (getline (getline (openText t0) prev).2 []).1
    have h3 := room_getline (getline (getline (getline (openText t0) prev).2 []).2 (getline (getline (openText t0) prev).2 []).1).2
      (getline (getline (getline (openText t0) prev).2 []).2 (getline (getline (openText t0) prev).2 []).1).1
    have h := Nat.le_trans h3 (Nat.le_trans h2 h1)
    refine ⟨?_, fun n r' e => ?_⟩
    · exact Settled.bind ((coordLoop_settled L _ _ [] [] [] (Nat.le_trans h hr)).mono (by omega)) fun _ _ => Settled.const _ _
    · obtain ⟨⟨f1, X, Y, Z⟩, e1, e⟩ := Res.bind_eq_ok.1 e
      cases e
      exact Nat.le_trans (coordLoop_room _ _ _ _ _ _ _ e1) h
  · exact en _ (fun _ _ => rfl)
  · exact en _ (fun _ _ => rfl)
  · left
    have h1 := room_getline (getline (openText t0) prev).2 []
    refine ⟨?_, fun n r' e => ?_⟩
    · exact Settled.bind ((overlapFirst_settled L _ _ [] 0 [] (Nat.le_trans h1 hr)).mono (by omega)) fun _ _ => Settled.const _ _
    · obtain ⟨⟨f1, l1, c1, rows⟩, e1, e⟩ := Res.bind_eq_ok.1 e
      obtain ⟨m, -, e⟩ := Res.bind_eq_ok.1 e
      obtain ⟨m', -, e⟩ := Res.bind_eq_ok.1 e
      obtain ⟨⟨f2, m2⟩, e2, e⟩ := Res.bind_eq_ok.1 e
      cases e
      exact Nat.le_trans (overlapBlocks_room _ _ _ _ _ _ _ e2) (Nat.le_trans (overlapFirst_room _ _ _ _ _ _ _ e1) h1)

end
end Verif.Readers
