import Verif.LogLinesC
import Verif.ConcreteNum
import Verif.ConcreteLog
/-
C120: a log file, whatever is in it. What follows from the lines of a text for reading it: the values the getters give, the way it
fails, or that it does not end; and that there is no fourth case.
-/
namespace Verif.LogLines
open Strings Log Readers
open Pun (rowLine NoLine strip)

variable {α : Type} [Mul α] [Num α] [Zero α]

/-! ### which table -/

/-- Tag and headers. -/
def headerOf : Kind → Str × List Str
  | .population => ((lit "AOFunction"), [(lit "     Gross orbital populations:")])
  | .coords => ((lit "Coord"), [(lit "Center     Atomic      Atomic"), (lit "Center     Atomic     Atomic")])
  | .energies .alpha => ((lit "OEAlpha"), [(lit " Alpha  occ. eigenvalues --")])
  | .energies .beta => ((lit "OEBeta"), [(lit "  Beta  occ. eigenvalues --")])
  | .overlap => ((lit "Overlap"), [(lit " *** Overlap ***")])

theorem headers_map : (logSections (α := α)).headers = precedence.map headerOf := rfl

theorem mentions_iff (l : Str) (k : Kind) : Mentions l k ↔ ∃ p ∈ (headerOf k).2, Contains l p := by
  cases k with
  | population => simp [Mentions, headerOf]
  | coords => simp [Mentions, headerOf]
  | energies spin => cases spin <;> simp [Mentions, headerOf, energyHeader]
  | overlap => simp [Mentions, headerOf]

/-- The reader. -/
def readerOf : Kind → SectionReader (LogData α)
  | .population => aoReader
  | .coords => coordReader
  | .energies .alpha => alphaReader
  | .energies .beta => betaReader
  | .overlap => overlapReader

theorem readSection_kind (k : Kind) (fuel : Nat) (r : FR (LogData α)) : readSection logSections fuel (headerOf k).1 r = readerOf k fuel r := by
  cases k with
  | energies spin => cases spin <;> rfl
  | _ => rfl

theorem tag_ne (k : Kind) : (headerOf k).1 ≠ [] := by
  cases k with
  | energies spin => cases spin <;> simp [headerOf]
  | _ => simp [headerOf]

theorem start_kind {l : Str} {k : Kind} (h : Announces l k) : startSection (logSections (α := α)).headers l = (headerOf k).1 := by
  obtain ⟨a, b, e, h1, h2⟩ := h
  refine start_of (before := a.map headerOf) (after := b.map headerOf) (hs := (headerOf k).2) ?_ ?_ ((mentions_iff l k).1 h1)
  · rw [headers_map, e]
    simp
  · intro th hth p hp hc
    obtain ⟨k', hk, rfl⟩ := List.mem_map.1 hth
    exact h2 k' hk ((mentions_iff l k').2 ⟨p, hp, hc⟩)

theorem start_no_kind {l : Str} (h : ∀ k, ¬ Announces l k) : startSection (logSections (α := α)).headers l = [] := by
  have key : ∀ (pre post : List Kind), precedence = pre ++ post → (∀ k ∈ pre, ¬ Mentions l k) → ∀ k ∈ post, ¬ Mentions l k := by
    intro pre post
    induction post generalizing pre with
    | nil => intro _ _ k hk; cases hk
    | cons x post ih =>
      intro e hpre
      have hx : ¬ Mentions l x := fun hm => h x ⟨pre, post, e, hm, hpre⟩
      intro k hk
      rcases List.mem_cons.1 hk with rfl | hk
      · exact hx
      · refine ih (pre ++ [x]) (by rw [e]; simp) ?_ k hk
        intro k' hk'
        rcases List.mem_append.1 hk' with hk' | hk'
        · exact hpre k' hk'
        · simp only [List.mem_singleton] at hk'
          subst hk'
          exact hx
  apply startSection_none
  intro th hth p hp hc
  rw [headers_map] at hth
  obtain ⟨k, hk, rfl⟩ := List.mem_map.1 hth
  exact key [] precedence rfl (fun k hk => by cases hk) k hk ((mentions_iff l k).2 ⟨p, hp, hc⟩)

/-! ### going through the file -/

/-- What `read` leaves, from some place on. -/
def goOn (fuel : Nat) (r : FR (LogData α)) (line : Str) : Res (LogData α) := readLoop logSections fuel r line >>= fun r => .ok r.data

theorem goOn_none {t : Str} {i : Nat} {r : FR (LogData α)} (h : Here t i r.fid r.pos) (hn : NoLine t i) (line : Str) (fuel : Nat) :
    goOn (fuel + 1) r line = .ok r.data := by
  have := h.getline_none hn line
  unfold goOn readLoop
  cases hg : getline r.fid line with
  | mk l fid =>
    rw [hg] at this
    simp only [] at this ⊢
    rw [if_pos this]
    rfl

theorem goOn_skip {t : Str} {i : Nat} {r : FR (LogData α)} (h : Here t i r.fid r.pos) (hn : ¬ NoLine t i)
    (ha : ∀ k, ¬ Announces (lineAt t i) k) (line : Str) : ∃ r' : FR (LogData α), Here t (i + 1) r'.fid r'.pos ∧ r'.data = r.data ∧
      ∀ fuel, goOn (fuel + 1) r line = goOn fuel r' (lineAt t i) := by
  obtain ⟨fid', hg, hf, hat⟩ := (h.at hn).getline_some hn line
  refine ⟨{ r with fid := (tellg fid').2, pos := (tellg fid').1 }, At.here hat, rfl, fun fuel => ?_⟩
  unfold goOn
  conv => lhs; rw [readLoop]
  simp only [hg, hf, Bool.false_eq_true, if_false, start_no_kind ha, ne_eq, not_true, Res.ok_bind]

theorem goOn_table {t : Str} {i : Nat} {r : FR (LogData α)} (h : Here t i r.fid r.pos) (hn : ¬ NoLine t i) {k : Kind}
    (ha : Announces (lineAt t i) k) (line : Str) : ∃ fid', At t (i + 1) fid' ∧ fid'.fail = false ∧
      ∀ fuel, goOn (fuel + 1) r line = readerOf k fuel { r with fid := fid' } >>= fun x =>
        goOn fuel { x with fid := (tellg x.fid).2, pos := (tellg x.fid).1 } (lineAt t i) := by
  obtain ⟨fid', hg, hf, hat⟩ := (h.at hn).getline_some hn line
  refine ⟨fid', hat, hf, fun fuel => ?_⟩
  unfold goOn
  conv => lhs; rw [readLoop]
  simp only [hg, hf, Bool.false_eq_true, if_false, start_kind ha]
  rw [if_pos (tag_ne k), readSection_kind, bind_assoc]

/-- What the reader holds is what is known. -/
structure Holds (D : LogData α) (d : Known α) : Prop where
  xyz : D.xyz = match d.coords with
    | none => []
    | some rows => [rows.map (·.1), rows.map (·.2.1), rows.map (·.2.2)]
  oe : ∀ spin : Spin, D.oe.get spin.name = (d.energies spin).map (·.1)
  homo : ∀ spin : Spin, D.homo.get spin.name = (d.energies spin).map (fun x => (x.2 : Int))
  S : match d.overlap with
    | none => D.S = none
    | some x => ∃ m, D.S = some m ∧ 1 ≤ x.1 ∧ Listed m x.1 x.2
  orb : shape D.orb = addShape [] d.functions

theorem Holds.gives {D : LogData α} {d : Known α} (h : Holds D d) : Gives D d where
  coords := h.xyz
  energies := fun spin => by
    unfold LogData.getOE
    rw [h.oe spin]
    cases d.energies spin <;> rfl
  homo := fun spin => by
    unfold LogData.getHOMOLevel
    rw [h.homo spin]
    cases d.energies spin <;> rfl
  overlap := by
    have := h.S
    cases ho : d.overlap with
    | none =>
      rw [ho] at this
      unfold LogData.getOverlapMatrix
      simp only [] at this ⊢
      rw [this]
    | some x =>
      rw [ho] at this
      simp only [] at this ⊢
      obtain ⟨m, h1, h2, h3⟩ := this
      refine ⟨m, by unfold LogData.getOverlapMatrix; rw [h1], Mat.IsMat.rows h3, Mat.IsMat.cols h3, fun r c a1 a2 a3 a4 => ?_⟩
      have := Mat.IsMat.get2 h3 (by omega) (i := r) (j := c) (by omega) (by omega) (by omega) (by omega)
      simpa using this
  functions := by
    rw [counts_shape, h.orb]
    exact addShape_counts d.functions

theorem energyReader (spin : Spin) (fuel : Nat) (r : FR (LogData α)) :
    readerOf (.energies spin) fuel r = readOrbEnergies spin.name fuel { r with fid := seekg r.fid r.pos } := by
  cases spin <;> rfl

/-- A table is read. -/
theorem table_says {t : Str} (hfit : AllFit t) {i : Nat} {k : Kind} {f : Known α → Known α} {e : Nat} (h : Table t i k f e) (hn : ¬ NoLine t i) (r : FR (LogData α))
    (hr : Here t i r.fid r.pos) (fid' : Readers.Stream) (ha : At t (i + 1) fid') (hf : fid'.fail = false) {d : Known α} (hd : Holds r.data d) :
    ∃ (N : Nat) (x : FR (LogData α)), Here t e (tellg x.fid).2 (tellg x.fid).1 ∧ Holds x.data (f d) ∧ ∀ fuel, N ≤ fuel → readerOf k fuel { r with fid := fid' } = .ok x := by
  cases h with
  | @coords k pos h1 h2 =>
    obtain ⟨fid, h3, h4⟩ := coordReader_says hfit h1 h2 { r with fid := fid' } ha
    refine ⟨k + 1, _, At.here h3, ?_, h4⟩
    refine ⟨?_, hd.oe, hd.homo, hd.S, hd.orb⟩
    simp [List.map_map, Function.comp_def]
  | @energies spin k h1 h2 =>
    obtain ⟨hb, -⟩ := hr.back hn hf
    obtain ⟨fid, pos, h3, h4⟩ := readOrbEnergies_says hn h2 r hr
    refine ⟨k + 1, ⟨fid, pos, energyData r.data t spin i k⟩, h3, ?_, fun fuel hfu => ?_⟩
    swap
    · rw [energyReader]
      simp only []
      rw [hb]
      exact h4 fuel hfu
    refine ⟨hd.xyz, fun s => ?_, fun s => ?_, hd.S, hd.orb⟩
    · by_cases hs : s = spin
      · subst hs
        simp [energyData, Map.get_set_self]
      · have hk : s.name ≠ spin.name := fun e => hs (spin_inj e)
        simp only [hs, if_false, energyData]
        rw [Map.get_set_ne _ hk]
        exact hd.oe s
    · by_cases hs : s = spin
      · subst hs
        simp [energyData, Map.get_set_self]
      · have hk : s.name ≠ spin.name := fun e => hs (spin_inj e)
        simp only [hs, if_false, energyData]
        rw [Map.get_set_ne _ hk]
        exact hd.homo s
  | @overlap n vals h1 =>
    obtain ⟨fid, m, h3, h4, h5⟩ := overlapReader_says hfit h1 { r with fid := fid' } ha
    exact ⟨n + 1, ⟨fid, r.pos, { r.data with S := some m }⟩, At.here h3, ⟨hd.xyz, hd.oe, hd.homo, ⟨m, rfl, h1.1, h4⟩, hd.orb⟩, h5⟩
  | @population fs e h1 =>
    obtain ⟨N, fid, orb, h3, h4, h5⟩ := aoReader_says hfit h1 { r with fid := fid' } ha
    refine ⟨N, ⟨fid, r.pos, { r.data with orb := orb }⟩, At.here h3, ⟨hd.xyz, hd.oe, hd.homo, hd.S, ?_⟩, h5⟩
    simp only []
    rw [h4, addShape_append, ← hd.orb]

theorem goOn_says {t : Str} (hfit : AllFit t) {i : Nat} {d d' : Known α} (h : Says t i d d') : ∀ (r : FR (LogData α)) (line : Str),
    Here t i r.fid r.pos → Holds r.data d → ∃ N D', Holds D' d' ∧ ∀ fuel, N ≤ fuel → goOn fuel r line = .ok D' := by
  induction h with
  | @done i d hn =>
    refine fun r line hr hd => ⟨1, r.data, hd, fun fuel hf => ?_⟩
    obtain ⟨k, rfl⟩ : ∃ k, fuel = k + 1 := ⟨fuel - 1, by omega⟩
    exact goOn_none hr hn line k
  | @skip i d d' hn ha _ ih =>
    intro r line hr hd
    obtain ⟨r', h1, h2, h3⟩ := goOn_skip hr hn ha line
    obtain ⟨N, D', h4, h5⟩ := ih r' (lineAt t i) h1 (h2 ▸ hd)
    refine ⟨N + 1, D', h4, fun fuel hf => ?_⟩
    obtain ⟨k, rfl⟩ : ∃ k, fuel = k + 1 := ⟨fuel - 1, by omega⟩
    rw [h3, h5 k (by omega)]
  | @table i k f e d d' hn ha ht _ ih =>
    intro r line hr hd
    obtain ⟨fid', h1, h2, h3⟩ := goOn_table hr hn ha line
    obtain ⟨M, x, h4, h5, h6⟩ := table_says hfit ht hn r hr fid' h1 h2 hd
    obtain ⟨N, D', h7, h8⟩ := ih { x with fid := (tellg x.fid).2, pos := (tellg x.fid).1 } (lineAt t i) h4 h5
    refine ⟨max N M + 1, D', h7, fun fuel hf => ?_⟩
    obtain ⟨k, rfl⟩ : ∃ k, fuel = k + 1 := ⟨fuel - 1, by omega⟩
    rw [h3, h6 k (by omega), Res.ok_bind]
    exact h8 k (by omega)

theorem goOn_fails {t : Str} (hfit : AllFit t) {i : Nat} {x : Fault} (h : Fails α t i x) : ∀ (r : FR (LogData α)) (line : Str) (d : Known α),
    Here t i r.fid r.pos → Holds r.data d → ∃ N, ∀ fuel, N ≤ fuel → goOn fuel r line = x.out := by
  induction h with
  | @bad i k x hn ha hb =>
    intro r line d hr hd
    obtain ⟨fid', h1, h2, h3⟩ := goOn_table hr hn ha line
    have : ∃ N, ∀ fuel, N ≤ fuel → readerOf k fuel { r with fid := fid' } = (x.out : Res (FR (LogData α))) := by
      cases hb with
      | @coords m e pos c1 c2 c3 => exact ⟨m + 1, fun fuel hf => coordReader_bad hfit c1 c2 c3 { r with fid := fid' } h1 fuel hf⟩
      | overlap ho =>
        obtain ⟨N, hN⟩ := overlapReader_bad hfit ho
        exact ⟨N, hN { r with fid := fid' } h1⟩
      | population hp => exact aoReader_bad hfit hp { r with fid := fid' } h1
    obtain ⟨N, hN⟩ := this
    refine ⟨N + 1, fun fuel hf => ?_⟩
    obtain ⟨m, rfl⟩ : ∃ m, fuel = m + 1 := ⟨fuel - 1, by omega⟩
    rw [h3, hN m (by omega)]
    cases x <;> rfl
  | @skip i x hn ha _ ih =>
    intro r line d hr hd
    obtain ⟨r', h1, h2, h3⟩ := goOn_skip hr hn ha line
    obtain ⟨N, h5⟩ := ih r' (lineAt t i) d h1 (h2 ▸ hd)
    refine ⟨N + 1, fun fuel hf => ?_⟩
    obtain ⟨k, rfl⟩ : ∃ k, fuel = k + 1 := ⟨fuel - 1, by omega⟩
    rw [h3, h5 k (by omega)]
  | @table i k e x f hn ha ht _ ih =>
    intro r line d hr hd
    obtain ⟨fid', h1, h2, h3⟩ := goOn_table hr hn ha line
    obtain ⟨M, y, h4, h5, h6⟩ := table_says hfit ht hn r hr fid' h1 h2 hd
    obtain ⟨N, h8⟩ := ih { y with fid := (tellg y.fid).2, pos := (tellg y.fid).1 } (lineAt t i) (f d) h4 h5
    refine ⟨max N M + 1, fun fuel hf => ?_⟩
    obtain ⟨k, rfl⟩ : ∃ k, fuel = k + 1 := ⟨fuel - 1, by omega⟩
    rw [h3, h6 k (by omega), Res.ok_bind]
    exact h8 k (by omega)

theorem goOn_mono (r : FR (LogData α)) (line : Str) : Mono (fun n => goOn n r line) :=
  fun n m hle => Le.bind (readLoop_mono logSections_mono n m hle _ _) (fun _ => Le.refl _)

/-- The line is read again and again. -/
theorem goOn_again {t : Str} {i : Nat} {spin : Spin} (hn : ¬ NoLine t i) (ha : Announces (lineAt t i) (.energies spin)) (he : EnergyLines t spin i 0) :
    ∀ (fuel : Nat) (r : FR (LogData α)) (line : Str), Here t i r.fid r.pos → goOn fuel r line = .diverge := by
  intro fuel
  induction fuel with
  | zero => intro r line _; rfl
  | succ fuel ih =>
    intro r line hr
    obtain ⟨fid', h1, h2, h3⟩ := goOn_table hr hn ha line
    obtain ⟨hb, -⟩ := hr.back hn h2
    obtain ⟨fid, pos, h4, h5⟩ := readOrbEnergies_says hn he r hr
    rw [h3, energyReader]
    simp only []
    rw [hb]
    cases fuel with
    | zero => rfl
    | succ fuel =>
      rw [h5 (fuel + 1) (by omega), Res.ok_bind]
      exact ih _ _ h4

theorem goOn_endless {t : Str} (hfit : AllFit t) {i : Nat} (h : Endless α t i) : ∀ (r : FR (LogData α)) (line : Str) (d : Known α),
    Here t i r.fid r.pos → Holds r.data d → ∀ fuel, goOn fuel r line = .diverge := by
  induction h with
  | @here i k hn ha hb =>
    intro r line d hr hd fuel
    obtain ⟨fid', h1, h2, h3⟩ := goOn_table hr hn ha line
    cases fuel with
    | zero => rfl
    | succ fuel =>
      cases hb with
      | coords c1 => rw [h3, readerOf, coordReader_endless hfit c1 { r with fid := fid' } h1]; rfl
      | energies he => exact goOn_again hn ha he _ r line hr
      | population hp => rw [h3, readerOf, aoReader_endless hfit hp { r with fid := fid' } h1]; rfl
  | @skip i hn ha _ ih =>
    intro r line d hr hd fuel
    obtain ⟨r', h1, h2, h3⟩ := goOn_skip hr hn ha line
    cases fuel with
    | zero => rfl
    | succ k => rw [h3, ih r' _ d h1 (h2 ▸ hd) k]
  | @table i k e f hn ha ht _ ih =>
    intro r line d hr hd fuel
    obtain ⟨fid', h1, h2, h3⟩ := goOn_table hr hn ha line
    obtain ⟨M, y, h4, h5, h6⟩ := table_says hfit ht hn r hr fid' h1 h2 hd
    by_cases hdv : goOn fuel r line = .diverge
    · exact hdv
    · have h7 := goOn_mono r line fuel (max M fuel + 1) (by omega) hdv
      simp only [] at h7
      rw [h3, h6 _ (by omega), Res.ok_bind, ih { y with fid := (tellg y.fid).2, pos := (tellg y.fid).1 } (lineAt t i) (f d) h4 h5] at h7
      exact absurd h7.symm hdv

/-! ### nothing else can be -/

theorem kind_trichotomy (t : Str) (i : Nat) (k : Kind) : (∃ f e, i < e ∧ Table (α := α) t i k f e) ∨ (∃ x, BadTable α t i k x) ∨ EndlessTable α t i k := by
  cases k with
  | population => exact population_trichotomy t i
  | coords => exact coord_trichotomy t i
  | energies spin =>
    rcases energy_dichotomy (α := α) t spin i with h | h
    · exact .inl h
    · exact .inr (.inr h)
  | overlap =>
    rcases overlap_dichotomy (α := α) t i with h | h
    · exact .inl h
    · exact .inr (.inl h)

theorem file_trichotomy (t : Str) : ∀ (n i : Nat) (d : Known α), (textLines t).length - i ≤ n → (∃ d', Says t i d d') ∨ (∃ x, Fails α t i x) ∨ Endless α t i := by
  intro n
  induction n with
  | zero => exact fun i d h => .inl ⟨d, .done (.inl (by omega))⟩
  | succ n ih =>
    intro i d hi
    by_cases hn : NoLine t i
    · exact .inl ⟨d, .done hn⟩
    by_cases ha : ∃ k, Announces (lineAt t i) k
    · obtain ⟨k, ha⟩ := ha
      rcases kind_trichotomy (α := α) t i k with ⟨f, e, hie, ht⟩ | ⟨x, hb⟩ | hb
      · rcases ih e (f d) (by omega) with ⟨d', h⟩ | ⟨x, h⟩ | h
        · exact .inl ⟨d', .table hn ha ht h⟩
        · exact .inr (.inl ⟨x, .table hn ha ht h⟩)
        · exact .inr (.inr (.table hn ha ht h))
      · exact .inr (.inl ⟨x, .bad hn ha hb⟩)
      · exact .inr (.inr (.here hn ha hb))
    · have ha' : ∀ k, ¬ Announces (lineAt t i) k := fun k h => ha ⟨k, h⟩
      rcases ih (i + 1) d (by omega) with ⟨d', h⟩ | ⟨x, h⟩ | h
      · exact .inl ⟨d', .skip hn ha' h⟩
      · exact .inr (.inl ⟨x, .skip hn ha' h⟩)
      · exact .inr (.inr (.skip hn ha' h))

/-! ### the claims -/

theorem runFrom_goOn (t : Str) : runFrom (logSections (α := α)) t LogData.empty = fun n => goOn n ⟨openText t, some t, LogData.empty⟩ [] := rfl

theorem here_start (t : Str) : Here t 0 (openText t) (some t) := .inl ⟨[], t, rfl, rfl, rfl, rfl⟩

omit [Mul α] [Num α] in
theorem holds_start : Holds (LogData.empty : LogData α) nothing := ⟨rfl, fun spin => by cases spin <;> rfl, fun spin => by cases spin <;> rfl, rfl, rfl⟩

/-- **C120 (read).** If the text says `d`, the file is read, and the getters give `d`. -/
theorem C120_says (fs : Str → Option Str) (name text : Str) (hfit : Fits name) (hname : PlainName (lit ".log") name)
    (h : fs name = some text) (ht : Fits text) (d : Known α) (hs : Says text 0 nothing d) :
    ∃ D, Ends (fun n => (readLog fs n name : Res (LogData α))) (.ok D) ∧ Gives D d := by
  rw [readLog_eq fs name text hfit hname h, runFrom_goOn]
  obtain ⟨N, D, hD, hE⟩ := goOn_says (allFit_of ht) hs ⟨openText text, some text, LogData.empty⟩ [] (here_start text) holds_start
  exact ⟨D, ⟨by simp, N, hE⟩, hD.gives⟩

/-- **C120 (failure).** -/
theorem C120_fails (fs : Str → Option Str) (name text : Str) (hfit : Fits name) (hname : PlainName (lit ".log") name)
    (h : fs name = some text) (ht : Fits text) (x : Fault) (hs : Fails α text 0 x) :
    Ends (fun n => (readLog fs n name : Res (LogData α))) x.out := by
  rw [readLog_eq fs name text hfit hname h, runFrom_goOn]
  obtain ⟨N, hE⟩ := goOn_fails (allFit_of ht) hs ⟨openText text, some text, LogData.empty⟩ [] nothing (here_start text) holds_start
  exact ⟨by cases x <;> simp [Fault.out], N, hE⟩

/-- **C120 (no end).** -/
theorem C120_endless (fs : Str → Option Str) (name text : Str) (hfit : Fits name) (hname : PlainName (lit ".log") name)
    (h : fs name = some text) (ht : Fits text) (hs : Endless α text 0) : Hangs (fun n => (readLog fs n name : Res (LogData α))) := by
  rw [readLog_eq fs name text hfit hname h, runFrom_goOn]
  exact goOn_endless (allFit_of ht) hs ⟨openText text, some text, LogData.empty⟩ [] nothing (here_start text) holds_start

/-- **C120 (nothing else can be).** Whatever the text, one of the three applies. -/
theorem C120_cases (text : Str) : (∃ d : Known α, Says text 0 nothing d) ∨ (∃ x, Fails α text 0 x) ∨ Endless α text 0 :=
  file_trichotomy text _ 0 _ (Nat.le_refl _)

/-- **C120 (one case only).** The three exclude each other, and there is one way to fail only. -/
theorem C120_one (text : Str) (ht : Fits text) : (∀ (d : Known α) x, Says text 0 nothing d → ¬ Fails α text 0 x) ∧
    (∀ d : Known α, Says text 0 nothing d → ¬ Endless α text 0) ∧ (∀ x, Fails α text 0 x → ¬ Endless α text 0) ∧
    (∀ x y, Fails α text 0 x → Fails α text 0 y → x = y) := by
  have hf : Fits (lit "a.log") := by unfold Fits; decide
  have hp : PlainName (lit ".log") (lit "a.log") := ⟨[], (lit "a"), [], rfl, .inl rfl, by decide, by decide, by simp⟩
  refine ⟨fun d x h1 h2 => ?_, fun d h1 h2 => ?_, fun x h1 h2 => ?_, fun x y h1 h2 => ?_⟩
  · obtain ⟨D, e1, -⟩ := C120_says (fun _ => some text) _ text hf hp rfl ht d h1
    have := e1.unique (C120_fails (fun _ => some text) _ text hf hp rfl ht x h2)
    cases x <;> cases this
  · obtain ⟨D, ⟨-, N, e1⟩, -⟩ := C120_says (fun _ => some text) _ text hf hp rfl ht d h1
    have := (e1 N (Nat.le_refl _)).symm.trans (C120_endless (α := α) (fun _ => some text) _ text hf hp rfl ht h2 N)
    cases this
  · obtain ⟨h, N, e1⟩ := C120_fails (α := α) (fun _ => some text) _ text hf hp rfl ht x h1
    exact h ((e1 N (Nat.le_refl _)).symm.trans (C120_endless (α := α) (fun _ => some text) _ text hf hp rfl ht h2 N))
  · have := (C120_fails (α := α) (fun _ => some text) _ text hf hp rfl ht x h1).unique (C120_fails (α := α) (fun _ => some text) _ text hf hp rfl ht y h2)
    cases x <;> cases y <;> simp_all [Fault.out]

/-! ### concrete files -/

theorem name_log : PlainName (lit ".log") (lit "a.log") := ⟨[], (lit "a"), [], rfl, .inl rfl, by decide, by decide, by simp⟩
theorem fits_log : Fits (lit "a.log") := by unfold Fits; decide

private theorem announces_first {l : Str} (h : foundSubStrInStr l (lit "     Gross orbital populations:") = true) : Announces l .population :=
  ⟨[], _, rfl, contains_of h, by simp⟩

theorem announces_coords {l : Str} (h : foundSubStrInStr l (lit "Center     Atomic      Atomic") = true)
    (h1 : foundSubStrInStr l (lit "     Gross orbital populations:") = false) : Announces l .coords := by
  refine ⟨[.population], _, rfl, .inl (contains_of h), ?_⟩
  intro k hk
  obtain rfl : k = .population := by simpa using hk
  exact not_contains_of h1

theorem announces_alpha {l : Str} (h : foundSubStrInStr l (lit " Alpha  occ. eigenvalues --") = true)
    (h1 : foundSubStrInStr l (lit "     Gross orbital populations:") = false) (h2 : foundSubStrInStr l (lit "Center     Atomic      Atomic") = false)
    (h3 : foundSubStrInStr l (lit "Center     Atomic     Atomic") = false) : Announces l (.energies .alpha) := by
  refine ⟨[.population, .coords], _, rfl, contains_of h, ?_⟩
  intro k hk
  have : k = .population ∨ k = .coords := by simpa using hk
  rcases this with rfl | rfl
  · exact not_contains_of h1
  · rintro (e | e)
    · exact not_contains_of h2 e
    · exact not_contains_of h3 e

private theorem announces_overlap {l : Str} (h : foundSubStrInStr l (lit " *** Overlap ***") = true)
    (h1 : foundSubStrInStr l (lit "     Gross orbital populations:") = false) (h2 : foundSubStrInStr l (lit "Center     Atomic      Atomic") = false)
    (h3 : foundSubStrInStr l (lit "Center     Atomic     Atomic") = false) (h4 : foundSubStrInStr l (lit " Alpha  occ. eigenvalues --") = false)
    (h5 : foundSubStrInStr l (lit "  Beta  occ. eigenvalues --") = false) : Announces l .overlap := by
  refine ⟨[.population, .coords, .energies .alpha, .energies .beta], _, rfl, contains_of h, ?_⟩
  intro k hk
  have : k = .population ∨ k = .coords ∨ k = .energies .alpha ∨ k = .energies .beta := by simpa using hk
  rcases this with rfl | rfl | rfl | rfl
  · exact not_contains_of h1
  · rintro (e | e)
    · exact not_contains_of h2 e
    · exact not_contains_of h3 e
  · exact not_contains_of h4
  · exact not_contains_of h5

/-- One table of each kind. -/
def four : Str := (lit "Center     Atomic      Atomic\n\n\n 1 1 0 4 5 6\n---------------------------------------------------------------------\n Alpha  occ. eigenvalues -- -2-1\n Alpha virt. eigenvalues --  3\n *** Overlap ***\n         1  2\n 1  1D+00\n 2  7D+00  1D+00\n 0\n     Gross orbital populations:\n       1\n 1 1   H  1S      2\n 2        2S      0\n         Condensed to atoms\n")

def fourKnown : Known Int :=
  ⟨some [(4, 5, 6)], fun s => if s = .alpha then some ([-2, -1, 3], 2) else none, some (2, [(1, 1, 1), (2, 1, 7), (2, 2, 1)]),
    [((1, (lit "H")), (lit "1S")), ((1, (lit "H")), (lit "2S"))]⟩

theorem four_coords : Table four 0 .coords (fun d : Known Int => { d with coords := some [(4, 5, 6)] }) 5 := by
  refine Table.coords (k := 1) (pos := fun _ => (4, 5, 6)) ?_ (contains_of (by decide +kernel))
  intro j hj
  obtain rfl : j = 0 := by omega
  exact ⟨not_contains_of (by decide +kernel), by decide +kernel⟩

private theorem four_energies : Table four 5 (.energies .alpha)
    (fun d : Known Int => { d with energies := fun s => if s = .alpha then some ([-2, -1, 3], 2) else d.energies s }) 7 := by
  have e1 : IsOcc .alpha (lineAt four (5 + 0)) := contains_of (by decide +kernel)
  have e2 : ¬ IsOcc .alpha (lineAt four (5 + 1)) := not_contains_of (by decide +kernel)
  have h := Table.energies (α := Int) (t := four) (i := 5) (spin := .alpha) (k := 2) (by omega) ⟨?_, .inr ⟨not_contains_of (by decide +kernel), not_contains_of (by decide +kernel)⟩⟩
  · have e3 : (energiesOn four 5 2 : List Int) = [-2, -1, 3] := by decide +kernel
    have e4 : occupiedOn Int four .alpha 5 2 = 2 := by
      have : (lineEnergies (lineAt four (5 + 0)) : List Int).length = 2 := by decide +kernel
      simp only [occupiedOn, List.range_succ, List.range_zero, List.nil_append, List.map_cons, List.map_nil, List.cons_append, List.sum_cons, List.sum_nil,
        e1, e2, if_true, if_false, this]
      rfl
    rw [e3, e4] at h
    exact h
  · intro j hj
    have : j = 0 ∨ j = 1 := by omega
    rcases this with rfl | rfl
    · exact ⟨by unfold NoLine; decide +kernel, .inl e1⟩
    · exact ⟨by unfold NoLine; decide +kernel, .inr (contains_of (by decide +kernel))⟩

private theorem four_overlap : Table four 7 .overlap (fun d : Known Int => { d with overlap := some (2, [(1, 1, 1), (2, 1, 7), (2, 2, 1)]) }) 12 := by
  refine Table.overlap (n := 2) (vals := fun _ r => if r = 1 then [1] else [7, 1]) ⟨by omega, ⟨?_, ?_, 0, by decide +kernel, by omega⟩, ?_⟩
  · intro j hj
    have : j = 0 ∨ j = 1 := by omega
    rcases this with rfl | rfl <;> decide +kernel
  · intro r h1 h2
    have : r = 1 ∨ r = 2 := by omega
    rcases this with rfl | rfl <;> decide +kernel
  · intro b r hb h1 h2
    obtain rfl : b = 0 := by omega
    have : r = 1 ∨ r = 2 := by omega
    rcases this with rfl | rfl
    · exact ⟨by decide +kernel, by decide⟩
    · exact ⟨by decide +kernel, by decide⟩

private theorem four_population : Table four 12 .population
    (fun d : Known Int => { d with functions := d.functions ++ [((1, (lit "H")), (lit "1S")), ((1, (lit "H")), (lit "2S"))] }) 17 := by
  refine Table.population (e := 3) (.last (elem := (lit "H")) (ls := [(lit "1S"), (lit "2S")]) ⟨⟨⟨[2], by decide +kernel⟩, by decide +kernel⟩, by decide +kernel,
    [(lit "2S")], by decide +kernel, ?_⟩ (contains_of (by decide +kernel)))
  exact Further.last (vals := [0]) (by unfold Letters; decide +kernel) (by decide +kernel) (contains_of (by decide +kernel))

theorem four_says : Says four 0 nothing fourKnown := by
  refine .table (by unfold NoLine; decide +kernel) (announces_coords (by decide +kernel) (by decide +kernel)) four_coords ?_
  refine .table (by unfold NoLine; decide +kernel) (announces_alpha (by decide +kernel) (by decide +kernel) (by decide +kernel) (by decide +kernel)) four_energies ?_
  refine .table (by unfold NoLine; decide +kernel) (announces_overlap (by decide +kernel) (by decide +kernel) (by decide +kernel) (by decide +kernel)
    (by decide +kernel) (by decide +kernel)) four_overlap ?_
  refine .table (by unfold NoLine; decide +kernel) (announces_first (by decide +kernel)) four_population ?_
  exact .done (by unfold NoLine; decide +kernel)

example : ∃ D : LogData Int, Ends (fun n => readLog (holding (lit "a.log") four) n (lit "a.log")) (.ok D) ∧
    D.getCoords = [[4], [5], [6]] ∧ D.getOE (lit "Alpha") = .ok [-2, -1, 3] ∧ D.getHOMOLevel (lit "Alpha") = .ok 2 ∧
    D.getOE (lit "Beta") = .throw .outOfRange ∧ ∃ m, D.getOverlapMatrix = .ok m ∧ m.getElem2 1 2 = .ok 7 := by
  obtain ⟨D, h1, h2⟩ := C120_says (holding (lit "a.log") four) _ four fits_log name_log rfl (by unfold Fits; decide +kernel) _ four_says
  obtain ⟨m, h3, -, -, h4⟩ := h2.overlap
  exact ⟨D, h1, h2.coords, h2.energies .alpha, h2.homo .alpha, h2.energies .beta, m, h3, h4 1 2 (by omega) (by decide) (by omega) (by decide)⟩

/-- A table of overlaps without rows. -/
private def bare : Str := (lit " *** Overlap ***\n\n 7\n")

example : Ends (fun n => (readLog (holding (lit "a.log") bare) n (lit "a.log") : Res (LogData Int))) (.exit 1) := by
  refine C120_fails (holding (lit "a.log") bare) _ bare fits_log name_log rfl (by unfold Fits; decide +kernel) (.exits 1)
    (.bad (by unfold NoLine; decide +kernel) (announces_overlap (by decide +kernel) (by decide +kernel) (by decide +kernel) (by decide +kernel)
    (by decide +kernel) (by decide +kernel)) (.overlap (.empty (vals := fun _ => []) ⟨fun j hj => by omega, fun r h1 h2 => by omega, 7, by decide +kernel, by omega⟩)))

/-- An atom with a position that is no number. -/
private def noNumber : Str := (lit "Center     Atomic      Atomic\n\n\n 1 1 0 4 x 6\n")

example : Ends (fun n => (readLog (holding (lit "a.log") noNumber) n (lit "a.log") : Res (LogData Int))) (.throw .invalidArgument) :=
  C120_fails (holding (lit "a.log") noNumber) _ noNumber fits_log name_log rfl (by unfold Fits; decide +kernel) (.throws .invalidArgument)
    (.bad (by unfold NoLine; decide +kernel) (announces_coords (by decide +kernel) (by decide +kernel))
      (.coords (k := 0) (pos := fun _ => (0, 0, 0)) (fun j hj => by omega) (not_contains_of (by decide +kernel)) (by decide +kernel)))

/-- No blank after `--`. -/
private def again : Str := (lit " Alpha  occ. eigenvalues --\n")

example : Hangs (fun n => (readLog (holding (lit "a.log") again) n (lit "a.log") : Res (LogData Int))) :=
  C120_endless (holding (lit "a.log") again) _ again fits_log name_log rfl (by unfold Fits; decide +kernel)
    (.here (by unfold NoLine; decide +kernel) (announces_alpha (by decide +kernel) (by decide +kernel) (by decide +kernel) (by decide +kernel))
      (.energies ⟨fun j hj => by omega, .inr ⟨not_contains_of (by decide +kernel), not_contains_of (by decide +kernel)⟩⟩))

end Verif.LogLines
