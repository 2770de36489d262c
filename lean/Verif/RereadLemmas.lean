import Verif.Reread
import Verif.Spec.Reread
import Verif.Props.LogLines
import Verif.Props.PunLines
import Mathlib.Tactic.Tauto
/-
Lemmas for C123.
-/
namespace Verif.Readers
open Strings Log

section
variable {σ : Type}

theorem Reader.read_text (s : Sections σ) (name : Str) (text : Str) (fuel : Nat) (p : Option Nat) (D : σ) :
    Reader.read s (fun _ => some text) name fuel ⟨false, p, D⟩ = readLoop s fuel ⟨openText text, p.map (text.drop ·), D⟩ [] >>= fun f =>
      .ok ⟨false, if text = [] then p else f.pos.map (fun rest => text.length - rest.length), f.data⟩ := rfl

theorem Reader.read_mono {s : Sections σ} (hs : SectionsMono s) (fs : Str → Option Str) (name : Str) (r : Reader σ) :
    Mono (fun n => r.read s fs name n) := by
  intro n m hle
  unfold Reader.read
  cases fs name with
  | none => exact Le.refl _
  | some t =>
    dsimp only
    split
    · exact Le.refl _
    · exact Le.bind (readLoop_mono hs n m hle _ _) (fun _ => Le.refl _)

theorem Reader.reads_mono {s : Sections σ} (hs : SectionsMono s) (name : Str) : ∀ (ts : List Str) (r : Reader σ),
    Mono (fun n => r.reads s name n ts)
  | [], _ => Mono.const _
  | t :: ts, r => fun n m hle => Le.bind (Reader.read_mono hs _ name r n m hle) (fun a => Reader.reads_mono hs name ts a n m hle)

theorem Reader.reads_snoc (s : Sections σ) (name : Str) (fuel : Nat) (r : Reader σ) (ts : List Str) (t : Str) :
    r.reads s name fuel (ts ++ [t]) = r.reads s name fuel ts >>= fun r => r.read s (fun _ => some t) name fuel := by
  unfold Reader.reads
  rw [List.foldlM_append]
  congr 1
  funext a
  simp only [List.foldlM_cons, List.foldlM_nil]
  cases Reader.read s (fun _ => some t) name fuel a <;> rfl

theorem Reader.reads_append (s : Sections σ) (name : Str) (fuel : Nat) (r : Reader σ) (ts us : List Str) :
    r.reads s name fuel (ts ++ us) = r.reads s name fuel ts >>= fun r => r.reads s name fuel us := by
  unfold Reader.reads
  rw [List.foldlM_append]

theorem Mono.hangs_bind {β γ : Type} {f : Nat → Res β} {g : Nat → β → Res γ} {a : β} (hm : Mono f) (h : Ends f (.ok a)) (hg : Hangs (fun n => g n a)) :
    Hangs (fun n => f n >>= g n) := by
  intro n
  obtain ⟨-, N, hN⟩ := h
  have := hm n (max n N) (Nat.le_max_left _ _)
  rw [hN _ (Nat.le_max_right _ _)] at this
  show (f n >>= g n) = _
  by_cases hd : f n = .diverge
  · rw [hd]; rfl
  · rw [← this hd]
    exact hg n

theorem Mono.ends_of {β γ : Type} {f : Nat → Res β} {g : β → γ} {c : γ} (hm : Mono f) (h : Ends (fun n => f n >>= fun b => .ok (g b)) (.ok c)) :
    ∃ b, Ends f (.ok b) ∧ g b = c := by
  obtain ⟨-, N, hN⟩ := h
  obtain ⟨b, h1, h2⟩ := Res.bind_eq_ok.1 (hN N (Nat.le_refl _))
  refine ⟨b, ⟨by simp, N, fun n hn => ?_⟩, by cases h2; rfl⟩
  rw [hm N n hn (by rw [h1]; simp), h1]

theorem tellg_again (s : Stream) : (tellg s).1 = (tellg (tellg s).2).1 := by
  unfold tellg
  split
  · simp
  · rfl

/-- The place where reading stopped. -/
theorem readLoop_place (s : Sections σ) : ∀ (fuel : Nat) (r f : FR σ) (line : Str), readLoop s fuel r line = .ok f → r.pos = (tellg r.fid).1 →
    f.pos = none ∨ f.pos = some [] := by
  intro fuel
  induction fuel with
  | zero => intro r f line h; cases h
  | succ fuel ih =>
    intro r f line h hp
    rw [readLoop] at h
    cases hg : getline r.fid line with
    | mk l fid =>
      rw [hg] at h
      dsimp only at h
      split at h
      · cases h
        rename_i hf
        simp only [hp]
        unfold tellg
        split
        · exact .inl rfl
        · rename_i hb
          unfold getline at hg
          rw [if_neg hb] at hg
          right
          cases ht : r.fid.text with
          | nil => rfl
          | cons c t =>
            rw [ht] at hg
            dsimp only at hg
            split at hg <;> (cases hg; simp at hf)
      · split at h <;>
        · obtain ⟨x, h1, h2⟩ := Res.bind_eq_ok.1 h
          exact ih _ f l h2 (tellg_again _)

theorem readLoop_place_open (s : Sections σ) (fuel : Nat) (t : Str) (ht : t ≠ []) (p : Option Str) (D : σ) (line : Str) (f : FR σ)
    (h : readLoop s fuel ⟨openText t, p, D⟩ line = .ok f) : f.pos = none ∨ f.pos = some [] := by
  cases fuel with
  | zero => cases h
  | succ fuel =>
    rw [readLoop] at h
    cases hg : getline (openText t) line with
    | mk l fid =>
      simp only [hg] at h
      split at h
      · rename_i hf
        exfalso
        unfold getline openText at hg
        cases t with
        | nil => exact ht rfl
        | cons c t =>
          simp only [Bool.or_self, Bool.false_eq_true, if_false] at hg
          split at hg <;> (cases hg; simp at hf)
      · split at h <;>
        · obtain ⟨x, h1, h2⟩ := Res.bind_eq_ok.1 h
          exact readLoop_place s fuel _ f l h2 (tellg_again _)

end

section pun
variable {α : Type} [Mul α] [Num α]

theorem pun_read_says {t : Str} (hfit : AllFit t) (name : Str) {d d' : Pun.Known α} (h : Pun.Says t 0 d d') (r : Reader (PunData α)) (ho : r.isOpen = false)
    (hd : Matches r.data d) : ∃ r' : Reader (PunData α), r'.isOpen = false ∧ Matches r'.data d' ∧
      Ends (fun n => r.read punSections (fun _ => some t) name n) (.ok r') := by
  obtain ⟨o, p, D⟩ := r
  cases ho
  obtain ⟨N, hN⟩ := onward_says hfit h
  obtain ⟨D', h1, h2⟩ := hN ⟨openText t, p.map (t.drop ·), D⟩ [] (at_start t) hd
  have hE : Ends (fun n => readLoop punSections n ⟨openText t, p.map (t.drop ·), D⟩ [] >>= fun f => .ok f.data) (.ok D') := ⟨by simp, N, h2⟩
  obtain ⟨f, h3, h4⟩ := Mono.ends_of (fun n m hle => readLoop_mono punSections_mono n m hle _ _) hE
  refine ⟨⟨false, if t = [] then p else f.pos.map (fun rest => t.length - rest.length), f.data⟩, rfl, by rw [h4]; exact h1, ?_⟩
  simp only [Reader.read_text]
  exact Ends.bind h3 (Ends.ok_const _)

theorem pun_read_fails {t : Str} (hfit : AllFit t) (name : Str) {e : Exn} (h : Pun.Fails α t 0 e) (r : Reader (PunData α)) (ho : r.isOpen = false) :
    Ends (fun n => r.read punSections (fun _ => some t) name n) (.throw e) := by
  obtain ⟨o, p, D⟩ := r
  cases ho
  obtain ⟨N, hN⟩ := onward_fails hfit h
  refine ⟨by simp, N, fun n hn => ?_⟩
  have := hN ⟨openText t, p.map (t.drop ·), D⟩ [] (at_start t) n hn
  unfold onward at this
  show Reader.read _ _ _ _ _ = _
  rw [Reader.read_text]
  cases hx : readLoop punSections n ⟨openText t, p.map (t.drop ·), D⟩ [] with
  | ok x => rw [hx] at this; cases this
  | throw e' => rw [hx] at this; cases this; rfl
  | _ => rw [hx] at this; cases this

theorem pun_read_endless {t : Str} (hfit : AllFit t) (name : Str) (h : Pun.Endless α t 0) (r : Reader (PunData α)) (ho : r.isOpen = false) :
    Hangs (fun n => r.read punSections (fun _ => some t) name n) := by
  obtain ⟨o, p, D⟩ := r
  cases ho
  intro n
  have := onward_endless hfit h ⟨openText t, p.map (t.drop ·), D⟩ [] (at_start t) n
  unfold onward at this
  show Reader.read _ _ _ _ _ = _
  rw [Reader.read_text]
  cases hx : readLoop punSections n ⟨openText t, p.map (t.drop ·), D⟩ [] with
  | ok x => rw [hx] at this; cases this
  | diverge => rfl
  | _ => rw [hx] at this; cases this

theorem Matches.gives [Zero α] {D : PunData α} {d : Pun.Known α} (hD : Matches D d) : Pun.Gives D d where
  tables := fun spin rows hr => by
    obtain ⟨m, h1, h2⟩ := (hD.1 spin).2 rows hr
    refine ⟨m, by simp only [PunData.getCoefsMatrix, h1], ?_⟩
    cases rows with
    | nil => rw [(Mat.C04_ofVecVec []).1 rfl] at h2; cases h2
    | cons v vs =>
      have he : Pun.SameLength (v :: vs) := Classical.byContradiction fun hc => by
        rw [(even_iff (by simp)).2 hc] at h2; cases h2
      obtain ⟨m', e, -, h3, h4, -, h5⟩ := (Mat.C04_ofVecVec (v :: vs)).2.2 v rfl he
      rw [h2] at e
      cases e
      exact ⟨h3, h4, h5⟩
  missing := fun spin hr => by simp only [PunData.getCoefsMatrix, (hD.1 spin).1 hr]
  shell := by
    unfold PunData.restrictedShell
    have hl : D.length = (punKeys D).length := by simp [punKeys]
    rw [decide_eq_true_eq, hl, hD.2]
    cases (d .alpha).isSome <;> cases (d .beta).isSome <;> simp [spinKeys]

omit [Mul α] [Num α] in
theorem matches_start : Matches ([] : PunData α) (fun _ => none) := ⟨fun spin => ⟨fun _ => rfl, fun rows e => by cases e⟩, rfl⟩

theorem pun_told (name : Str) {ts : List Str} {d : Pun.Known α} (h : Pun.Told ts d) (hfit : ∀ t ∈ ts, Fits t) :
    ∃ r : Reader (PunData α), r.isOpen = false ∧ Matches r.data d ∧ Ends (fun n => (Reader.new []).reads punSections name n ts) (.ok r) := by
  induction h with
  | nil => exact ⟨Reader.new [], rfl, matches_start, Ends.ok_const _⟩
  | @snoc ts t d d' _ hs ih =>
    obtain ⟨r, h1, h2, h3⟩ := ih (fun u hu => hfit u (by simp [hu]))
    obtain ⟨r', h4, h5, h6⟩ := pun_read_says (allFit_of (hfit t (by simp))) name hs r h1 h2
    refine ⟨r', h4, h5, ?_⟩
    simp only [Reader.reads_snoc]
    exact Ends.bind h3 h6

/-- What a text says, when something else is known before. -/
theorem says_from {t : Str} {i : Nat} {d0 d1 : Pun.Known α} (h : Pun.Says t i d0 d1) : ∀ d, ∃ d', Pun.Says t i d d' ∧
    ∀ s, d' s = d1 s ∨ (d1 s = d0 s ∧ d' s = d s) := by
  induction h with
  | done hn => exact fun d => ⟨d, .done hn, fun s => .inr ⟨rfl, rfl⟩⟩
  | skip hn ha _ ih =>
    intro d
    obtain ⟨d', h1, h2⟩ := ih d
    exact ⟨d', .skip hn ha h1, h2⟩
  | @table i d0 d1 spin rows e hn ha ht he _ ih =>
    intro d
    obtain ⟨d', h1, h2⟩ := ih (fun s => if s = spin then some rows else d s)
    refine ⟨d', .table hn ha ht he h1, fun s => ?_⟩
    rcases h2 s with h | ⟨h3, h4⟩
    · exact .inl h
    · dsimp only at h3 h4
      by_cases hs : s = spin
      · rw [if_pos hs] at h3 h4
        exact .inl (h4.trans h3.symm)
      · rw [if_neg hs] at h3 h4
        exact .inr ⟨h3, h4⟩

theorem told_again {t : Str} {d : Pun.Known α} (h : Pun.Says t 0 (fun _ => none) d) : ∀ n, Pun.Told (List.replicate (n + 1) t) d := by
  intro n
  induction n with
  | zero => exact .snoc .nil h
  | succ n ih =>
    obtain ⟨d', h1, h2⟩ := says_from h d
    have : d' = d := funext fun s => (h2 s).elim id (fun h => h.2)
    rw [List.replicate_succ']
    exact .snoc ih (this ▸ h1)

end pun

end Verif.Readers

namespace Verif.LogLines
open Strings Log Readers
open Pun (NoLine)

variable {α : Type} [Mul α] [Num α] [Zero α]

theorem aoRows_pos (atom : Int) (elem : Str) (p : Option Str) : ∀ (fuel : Nat) (r : FR (LogData α)) (line e2 o : Str),
    aoRows atom elem fuel { r with pos := p } line e2 o = aoRows atom elem fuel r line e2 o >>= fun x => .ok ({ x.1 with pos := p }, x.2) := by
  intro fuel
  induction fuel with
  | zero => intro r line e2 o; rfl
  | succ fuel ih =>
    intro r line e2 o
    rw [aoRows, aoRows]
    split
    · rfl
    · simp only [bind_assoc]
      refine congrArg _ (funext fun vals => ?_)
      split
      · rfl
      · exact ih ⟨_, r.pos, _⟩ _ _ _

theorem aoAtoms_pos (p : Option Str) : ∀ (fuel : Nat) (atom : Int) (r : FR (LogData α)) (line : Str),
    aoAtoms fuel atom { r with pos := p } line = aoAtoms fuel atom r line >>= fun x => .ok { x with pos := p } := by
  intro fuel
  induction fuel with
  | zero => intro atom r line; rfl
  | succ fuel ih =>
    intro atom r line
    rw [aoAtoms, aoAtoms]
    simp only [bind_assoc]
    refine congrArg _ (funext fun vals => congrArg _ (funext fun c9 => congrArg _ (funext fun c10 => ?_)))
    rw [aoRows_pos atom _ p fuel ⟨_, r.pos, _⟩]
    simp only [bind_assoc, Res.ok_bind]
    refine congrArg _ (funext fun x => ?_)
    obtain ⟨r1, l1, b1⟩ := x
    dsimp only
    split
    · rfl
    · split
      · rfl
      · exact ih _ _ _

theorem readerOf_pos (p : Option Str) (k : Kind) (hk : ∀ s, k ≠ .energies s) (fuel : Nat) (r : FR (LogData α)) :
    readerOf k fuel { r with pos := p } = readerOf k fuel r >>= fun x => .ok { x with pos := p } := by
  cases k with
  | population => exact aoAtoms_pos p fuel 1 ⟨_, r.pos, _⟩ _
  | coords =>
    simp only [readerOf, coordReader, bind_assoc, Res.ok_bind]
  | energies s => exact absurd rfl (hk s)
  | overlap => simp only [readerOf, overlapReader, bind_assoc, Res.ok_bind]

/-- The place left by an earlier call does not matter unless the text starts with energies. -/
theorem goOn_stale {t : Str} (h : ¬ StartsWithEnergies t) (p q : Option Str) (D : LogData α) (line : Str) (fuel : Nat) :
    goOn fuel ⟨openText t, p, D⟩ line = goOn fuel ⟨openText t, q, D⟩ line := by
  cases fuel with
  | zero => rfl
  | succ fuel =>
    by_cases hn : NoLine t 0
    · have := At.getline_none (at_start t) hn line
      unfold goOn
      rw [readLoop, readLoop]
      simp only [if_pos this, Res.ok_bind]
    · obtain ⟨fid', hg, hf, hat⟩ := At.getline_some (at_start t) hn line
      by_cases ha : ∃ k, Announces (lineAt t 0) k
      · obtain ⟨k, ha⟩ := ha
        unfold goOn
        conv => lhs; rw [readLoop]
        conv => rhs; rw [readLoop]
        simp only [hg, hf, Bool.false_eq_true, if_false, start_kind ha]
        rw [if_pos (tag_ne k), if_pos (tag_ne k), readSection_kind, readSection_kind]
        have hk : ∀ s, k ≠ .energies s := fun s e => h ⟨hn, s, e ▸ ha⟩
        have h1 := readerOf_pos p k hk fuel (⟨fid', none, D⟩ : FR (LogData α))
        have h2 := readerOf_pos q k hk fuel (⟨fid', none, D⟩ : FR (LogData α))
        dsimp only at h1 h2
        rw [h1, h2]
        simp only [bind_assoc, Res.ok_bind]
      · have ha' : ∀ k, ¬ Announces (lineAt t 0) k := fun k hk => ha ⟨k, hk⟩
        unfold goOn
        conv => lhs; rw [readLoop]
        conv => rhs; rw [readLoop]
        simp only [hg, hf, Bool.false_eq_true, if_false, start_no_kind ha', ne_eq, not_true, Res.ok_bind]

omit [Mul α] [Num α] in
theorem Holds.lose {D : LogData α} {d : Known α} (hd : Holds D d) (spin : Spin) :
    Holds { D with homo := D.homo.set spin.name 0, oe := D.oe.set spin.name [] } (LogLines.lose spin d) := by
  refine ⟨hd.xyz, fun s => ?_, fun s => ?_, hd.S, hd.orb⟩
  · by_cases hs : s = spin
    · subst hs
      simp [LogLines.lose, Map.get_set_self]
    · have hk : s.name ≠ spin.name := fun e => hs (spin_inj e)
      simp only [hs, if_false, LogLines.lose]
      rw [Map.get_set_ne _ hk]
      exact hd.oe s
  · by_cases hs : s = spin
    · subst hs
      simp [LogLines.lose, Map.get_set_self]
    · have hk : s.name ≠ spin.name := fun e => hs (spin_inj e)
      simp only [hs, if_false, LogLines.lose]
      rw [Map.get_set_ne _ hk]
      exact hd.homo s

/-- Energies are looked for at the end of the text. -/
theorem goOn_lost {t : Str} (hn : ¬ NoLine t 0) {spin : Spin} (ha : Announces (lineAt t 0) (.energies spin)) (p : Option Str) (hp : p = none ∨ p = some [])
    (D : LogData α) (line : Str) (fuel : Nat) :
    goOn (fuel + 2) ⟨openText t, p, D⟩ line = .ok { D with homo := D.homo.set spin.name 0, oe := D.oe.set spin.name [] } := by
  obtain ⟨fid', hg, hf, hat⟩ := At.getline_some (at_start t) hn line
  have hs : ∀ l, (getline (seekg fid' p) l).2.fail = true := by
    intro l
    rcases hp with rfl | rfl
    · simp [seekg, hf, getline]
    · simp [seekg, hf, getline]
  unfold goOn
  rw [readLoop]
  simp only [hg, hf, Bool.false_eq_true, if_false, start_kind ha]
  rw [if_pos (tag_ne _), readSection_kind, energyReader]
  unfold readOrbEnergies
  have he : ∀ (r : FR (LogData α)) (l : Str), (getline r.fid l).2.fail = true →
      energiesLoop spin.name (fuel + 1) r l = .ok { r with fid := (getline r.fid l).2 } := by
    intro r l h
    rw [energiesLoop]
    simp only []
    rw [if_pos h]
  dsimp only
  rw [he _ _ (hs [])]
  simp only [Res.ok_bind]
  rw [readLoop]
  have h2 : ∀ l, (getline (tellg (seekg (getline (seekg fid' p) []).2 p)).2 l).2.fail = true := by
    intro l
    have h3 : (seekg (getline (seekg fid' p) []).2 p).fail = true := by unfold seekg; rw [if_pos (by simpa [seekg] using hs [])]; simpa [seekg] using hs []
    have h4 : (tellg (seekg (getline (seekg fid' p) []).2 p)).2.fail = true := by unfold tellg; rw [if_pos (by simp [h3])]
    rw [getline_bad (.inr h4)]
  dsimp only
  rw [if_pos (h2 _)]
  rfl

/-- What is known and held after some texts. -/
structure After (ts : List Str) (r : Reader (LogData α)) (d : Known α) : Prop where
  closed : r.isOpen = false
  holds : Holds r.data d
  new : ts = [] → r.pos = some 0
  place : ∀ a u, ts = a ++ [u] → u ≠ [] → r.pos = none ∨ r.pos = some u.length

theorem log_read {t : Str} (name : Str) {p : Option Nat} {D D' : LogData α} (ts : List Str) {d' : Known α} (hd : Holds D' d')
    (h : Ends (fun n => goOn n ⟨openText t, p.map (t.drop ·), D⟩ []) (.ok D')) : ∃ r', After (ts ++ [t]) r' d' ∧
      Ends (fun n => Reader.read logSections (fun _ => some t) name n ⟨false, p, D⟩) (.ok r') := by
  obtain ⟨f, h3, h4⟩ := Mono.ends_of (fun n m hle => readLoop_mono logSections_mono n m hle _ _) h
  refine ⟨⟨false, if t = [] then p else f.pos.map (fun rest => t.length - rest.length), f.data⟩, ⟨rfl, by rw [h4]; exact hd, fun e => by simp at e, fun a u e hu => ?_⟩, ?_⟩
  · obtain ⟨-, e⟩ := List.append_inj' e rfl
    cases e
    obtain ⟨-, N, hN⟩ := h3
    rcases readLoop_place_open _ N t hu _ D [] f (hN N (Nat.le_refl _)) with e | e <;> simp [e, hu]
  · simp only [Reader.read_text]
    exact Ends.bind h3 (Ends.ok_const _)

theorem log_told (name : Str) {ts : List Str} {d : Known α} (h : Told ts d) (hfit : ∀ t ∈ ts, Fits t) :
    ∃ r : Reader (LogData α), After ts r d ∧ Ends (fun n => (Reader.new LogData.empty).reads logSections name n ts) (.ok r) := by
  induction h with
  | nil => exact ⟨Reader.new LogData.empty, ⟨rfl, holds_start, fun _ => rfl, fun a u e => by simp at e⟩, Ends.ok_const _⟩
  | @first t d hs =>
    obtain ⟨N, D', h1, h2⟩ := goOn_says (allFit_of (hfit t (by simp))) hs ⟨openText t, some t, LogData.empty⟩ [] (here_start t) holds_start
    obtain ⟨r', h3, h4⟩ := log_read (p := some 0) name [] h1 ⟨by simp, N, h2⟩
    refine ⟨r', h3, ?_⟩
    have := fun n => Reader.reads_snoc (logSections (α := α)) name n (Reader.new LogData.empty) [] t
    simp only [List.nil_append] at this
    simp only [this]
    exact Ends.bind (Ends.ok_const _) h4
  | @plain ts t d d' _ hne hs ih =>
    obtain ⟨r, h1, h2⟩ := ih (fun u hu => hfit u (by simp [hu]))
    obtain ⟨o, p, D⟩ := r
    obtain rfl : o = false := h1.closed
    obtain ⟨N, D', h3, h4⟩ := goOn_says (allFit_of (hfit t (by simp))) hs ⟨openText t, some t, D⟩ [] (here_start t) h1.holds
    obtain ⟨r', h5, h6⟩ := log_read (p := p) name ts h3 ⟨by simp, N, fun n hn => (goOn_stale hne _ _ D [] n).trans (h4 n hn)⟩
    refine ⟨r', h5, ?_⟩
    simp only [Reader.reads_snoc]
    exact Ends.bind h2 h6
  | @lost ts u t d spin _ hu hle hn ha ih =>
    obtain ⟨r, h1, h2⟩ := ih (fun v hv => hfit v (by simp at hv ⊢; tauto))
    obtain ⟨o, p, D⟩ := r
    obtain rfl : o = false := h1.closed
    have hp : p.map (t.drop ·) = none ∨ p.map (t.drop ·) = some [] := by
      rcases h1.place ts u rfl hu with e | e
      · left; simp only [] at e; rw [e]; rfl
      · right; simp only [] at e; rw [e]; simp [List.drop_eq_nil_of_le hle]
    have h3 := goOn_lost hn ha _ hp D []
    obtain ⟨r', h5, h6⟩ := log_read (p := p) name (ts ++ [u]) (h1.holds.lose spin) ⟨by simp, 2, fun n hn => by
      obtain ⟨m, rfl⟩ : ∃ m, n = m + 2 := ⟨n - 2, by omega⟩
      exact h3 m⟩
    have e : ts ++ [u, t] = (ts ++ [u]) ++ [t] := by simp
    rw [e]
    refine ⟨r', h5, ?_⟩
    simp only [Reader.reads_snoc]
    simp only [Reader.reads_snoc] at h2
    exact Ends.bind h2 h6

end Verif.LogLines
