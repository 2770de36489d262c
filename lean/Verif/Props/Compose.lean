import Verif.Spec.Compose
import Verif.Props.Coords
import Verif.Props.Fuel
import Verif.LogFileLemmas
import Verif.ConcreteLog
/-
Property C118: reading a log file part by part.
-/
namespace Verif.Readers
open Strings Log

/-! ### two runs that differ in what was known before -/

/-- The same outcome, up to `R`. -/
inductive Alike {β γ : Type} (R : β → γ → Prop) : Res β → Res γ → Prop
  | ok {a b} : R a b → Alike R (.ok a) (.ok b)
  | throw (e) : Alike R (.throw e) (.throw e)
  | exit (c) : Alike R (.exit c) (.exit c)
  | ub : Alike R .ub .ub
  | diverge : Alike R .diverge .diverge

theorem Alike.bind {β γ δ ε : Type} {R : β → γ → Prop} {Q : δ → ε → Prop} {x : Res β} {y : Res γ} {f : β → Res δ} {g : γ → Res ε}
    (h : Alike R x y) (hf : ∀ a b, R a b → Alike Q (f a) (g b)) : Alike Q (x >>= f) (y >>= g) := by
  cases h with
  | ok h => exact hf _ _ h
  | throw e => exact .throw e
  | exit c => exact .exit c
  | ub => exact .ub
  | diverge => exact .diverge

theorem Alike.same {β δ ε : Type} {Q : δ → ε → Prop} (x : Res β) {f : β → Res δ} {g : β → Res ε}
    (hf : ∀ a, Alike Q (f a) (g a)) : Alike Q (x >>= f) (x >>= g) := by
  cases x with
  | ok a => exact hf a
  | throw e => exact .throw e
  | exit c => exact .exit c
  | ub => exact .ub
  | diverge => exact .diverge

theorem Alike.ite {β γ : Type} {R : β → γ → Prop} {p : Prop} [Decidable p] {x y : Res β} {x' y' : Res γ} (h : p → Alike R x x') (h' : ¬ p → Alike R y y') :
    Alike R (if p then x else y) (if p then x' else y') := by
  split
  · exact h ‹_›
  · exact h' ‹_›

variable {α : Type}

/-- `d'` is `d`, and `d0` where `d` has nothing. -/
structure Over (d0 d d' : LogData α) : Prop where
  xyz : (d.xyz ≠ [] → d'.xyz = d.xyz) ∧ (d.xyz = [] → d'.xyz = d0.xyz)
  S : d'.S = d.S.or d0.S
  oe : ∀ k, d'.oe.get k = (d.oe.get k).or (d0.oe.get k)
  homo : ∀ k, d'.homo.get k = (d.homo.get k).or (d0.homo.get k)
  orb : (d0.orb = [] → d'.orb = d.orb) ∧ (d.orb = [] → d'.orb = d0.orb)

theorem Over.empty (d0 : LogData α) : Over d0 LogData.empty d0 :=
  ⟨⟨fun h => absurd rfl h, fun _ => rfl⟩, rfl, fun _ => rfl, fun _ => rfl, ⟨fun h => h, fun _ => rfl⟩⟩

/-- The same for readers. -/
def OverR (d0 : LogData α) (r r' : FR (LogData α)) : Prop := r'.fid = r.fid ∧ r'.pos = r.pos ∧ Over d0 r.data r'.data

theorem OrbCont.set_ne (o : OrbCont α) (k : Int × Str) (t : Str) (v : List α) : o.set k t v ≠ [] := by
  cases o with
  | nil => simp [OrbCont.set]
  | cons x o =>
    obtain ⟨key, m⟩ := x
    unfold OrbCont.set
    split
    · simp
    · split <;> simp

theorem Over.setOrb {d0 d d' : LogData α} (h : Over d0 d d') (k : Int × Str) (t : Str) (v : List α) :
    Over d0 { d with orb := d.orb.set k t v } { d' with orb := d'.orb.set k t v } :=
  ⟨h.xyz, h.S, h.oe, h.homo, ⟨fun e => by rw [h.orb.1 e], fun e => absurd e (OrbCont.set_ne _ _ _ _)⟩⟩

theorem Over.setS {d0 d d' : LogData α} (h : Over d0 d d') (m : Mat α) :
    Over d0 { d with S := some m } { d' with S := some m } := ⟨h.xyz, rfl, h.oe, h.homo, h.orb⟩

theorem Over.setXyz {d0 d d' : LogData α} (h : Over d0 d d') (X Y Z : List α) :
    Over d0 { d with xyz := [X, Y, Z] } { d' with xyz := [X, Y, Z] } := ⟨⟨fun _ => rfl, fun e => by cases e⟩, h.S, h.oe, h.homo, h.orb⟩

theorem or_set {β : Type} (m m' m0 : Map β) (h : ∀ k, m'.get k = (m.get k).or (m0.get k)) (s : Str) (v : β) (k : Str) :
    (m'.set s v).get k = ((m.set s v).get k).or (m0.get k) := by
  rw [Map.get_set, Map.get_set]
  by_cases e : k = s
  · rw [if_pos e, if_pos e]; rfl
  · rw [if_neg e, if_neg e]; exact h k

section
variable [Num α]

/-- Energies of `t` have been read, or the section has just begun. -/
def Begun (t : Str) (d : LogData α) : Prop := (∃ l, d.oe.get t = some l) ∧ ∃ n, d.homo.get t = some n

theorem pushEnergies_over (t : Str) (occ : Bool) (v : List Str) {d0 d d' : LogData α} (h : Over d0 d d') (hb : Begun t d) :
    Over d0 (pushEnergies t occ v d) (pushEnergies t occ v d') ∧ Begun t (pushEnergies t occ v d) := by
  induction v generalizing d d' with
  | nil => exact ⟨h, hb⟩
  | cons s v ih =>
    unfold pushEnergies
    obtain ⟨⟨l, hl⟩, n, hn⟩ := hb
    have hl' : d'.oe.get t = some l := by rw [h.oe, hl]; rfl
    have hn' : d'.homo.get t = some n := by rw [h.homo, hn]; rfl
    simp only [hl, hl', hn, hn', Option.getD_some]
    apply ih
    · refine ⟨h.xyz, h.S, fun k => or_set _ _ _ h.oe _ _ k, fun k => ?_, h.orb⟩
      cases occ
      · exact h.homo k
      · exact or_set _ _ _ h.homo _ _ k
    · refine ⟨⟨_, Map.get_set_self _ _ _⟩, ?_⟩
      cases occ
      · exact ⟨n, hn⟩
      · exact ⟨_, Map.get_set_self _ _ _⟩

theorem energiesLoop_over (t : Str) (d0 : LogData α) (fuel : Nat) : ∀ (r r' : FR (LogData α)) (line : Str), OverR d0 r r' → Begun t r.data →
    Alike (OverR d0) (energiesLoop t fuel r line) (energiesLoop t fuel r' line) := by
  induction fuel with
  | zero => intro r r' line _ _; exact .diverge
  | succ fuel ih =>
    rintro ⟨fid, pos, d⟩ ⟨fid', pos', d'⟩ line ⟨rfl, rfl, h⟩ hb
    unfold energiesLoop
    cases getline fid' line with
    | mk line fid =>
      dsimp only
      refine Alike.ite (fun _ => .ok ⟨rfl, rfl, h⟩) fun _ => Alike.ite (fun _ => ?_) fun _ => .ok ⟨rfl, rfl, h⟩
      refine Alike.same _ fun v => ?_
      have := pushEnergies_over t (foundSubStrInStr line ((lit " ") ++ t ++ (lit "  occ. eigenvalues -- "))) (v.drop 4) h hb
      exact ih _ _ _ ⟨rfl, rfl, this.1⟩ this.2

theorem readOrbEnergies_over (t : Str) (d0 : LogData α) (fuel : Nat) (r r' : FR (LogData α)) (h : OverR d0 r r') :
    Alike (OverR d0) (readOrbEnergies t fuel r) (readOrbEnergies t fuel r') := by
  obtain ⟨fid, pos, d⟩ := r
  obtain ⟨fid', pos', d'⟩ := r'
  obtain ⟨e1, e2, h⟩ := h
  dsimp only at e1 e2 h
  subst e1 e2
  unfold readOrbEnergies
  refine Alike.bind (energiesLoop_over t d0 fuel _ _ _ ⟨rfl, rfl, ?_⟩ ⟨⟨_, Map.get_set_self _ _ _⟩, _, Map.get_set_self _ _ _⟩) ?_
  · exact ⟨h.xyz, h.S, fun k => or_set _ _ _ h.oe _ _ k, fun k => or_set _ _ _ h.homo _ _ k, h.orb⟩
  · rintro ⟨f1, p1, d1⟩ ⟨f2, p2, d2⟩ ⟨e1, e2, h⟩
    dsimp only at e1 e2
    subst e1 e2
    exact .ok ⟨rfl, rfl, h⟩

/-- The same reader, line and flag. -/
def OverRow (d0 : LogData α) (x x' : FR (LogData α) × Str × Bool) : Prop := OverR d0 x.1 x'.1 ∧ x'.2 = x.2

theorem aoRows_over (atom : Int) (elem : Str) (d0 : LogData α) (fuel : Nat) : ∀ (r r' : FR (LogData α)) (line e2 ot : Str), OverR d0 r r' →
    Alike (OverRow d0) (aoRows atom elem fuel r line e2 ot) (aoRows atom elem fuel r' line e2 ot) := by
  induction fuel with
  | zero => intro r r' line e2 ot _; exact .diverge
  | succ fuel ih =>
    rintro ⟨fid, pos, d⟩ ⟨fid', pos', d'⟩ line e2 ot ⟨rfl, rfl, h⟩
    unfold aoRows
    refine Alike.ite (fun _ => .ok ⟨⟨rfl, rfl, h⟩, rfl⟩) fun _ => ?_
    refine Alike.same _ fun v => ?_
    exact Alike.ite (fun _ => .ok ⟨⟨rfl, rfl, h.setOrb _ _ _⟩, rfl⟩) fun _ => ih _ _ _ _ _ ⟨rfl, rfl, h.setOrb _ _ _⟩

theorem aoAtoms_over (d0 : LogData α) (fuel : Nat) : ∀ (atom : Int) (r r' : FR (LogData α)) (line : Str), OverR d0 r r' →
    Alike (OverR d0) (aoAtoms fuel atom r line) (aoAtoms fuel atom r' line) := by
  induction fuel with
  | zero => intro atom r r' line _; exact .diverge
  | succ fuel ih =>
    rintro atom ⟨fid, pos, d⟩ ⟨fid', pos', d'⟩ line ⟨rfl, rfl, h⟩
    unfold aoAtoms
    refine Alike.same _ fun v => Alike.same _ fun c => Alike.same _ fun c' => ?_
    refine Alike.bind (aoRows_over _ _ d0 fuel _ _ _ _ _ ⟨rfl, rfl, h.setOrb _ _ _⟩) ?_
    rintro ⟨r1, l1, b1⟩ ⟨r2, l2, b2⟩ ⟨hr, e⟩
    cases e
    exact Alike.ite (fun _ => .ok hr) fun _ => ih _ _ _ _ hr

variable [Mul α] [Zero α]

theorem logSections_over (d0 : LogData α) {tag : Str} {f : SectionReader (LogData α)} (hf : (logSections (α := α)).readers.get tag = some f)
    (fuel : Nat) (r r' : FR (LogData α)) (h : OverR d0 r r') : Alike (OverR d0) (f fuel r) (f fuel r') := by
  have hm := Map.get_mem hf
  obtain ⟨fid, pos, d⟩ := r
  obtain ⟨fid', pos', d'⟩ := r'
  obtain ⟨e1, e2, h⟩ := h
  dsimp only at e1 e2 h
  subst e1 e2
  simp only [logSections, List.mem_cons, List.not_mem_nil, or_false, Prod.mk.injEq] at hm
  rcases hm with ⟨-, rfl⟩ | ⟨-, rfl⟩ | ⟨-, rfl⟩ | ⟨-, rfl⟩ | ⟨-, rfl⟩
  · exact aoAtoms_over d0 fuel _ _ _ _ ⟨rfl, rfl, h⟩
  · unfold coordReader
    exact Alike.same _ fun x => .ok ⟨rfl, rfl, h.setXyz _ _ _⟩
  · exact readOrbEnergies_over _ d0 fuel _ _ ⟨rfl, rfl, h⟩
  · exact readOrbEnergies_over _ d0 fuel _ _ ⟨rfl, rfl, h⟩
  · unfold overlapReader
    refine Alike.same _ fun x => Alike.same _ fun m => Alike.same _ fun m => Alike.same _ fun m => ?_
    exact .ok ⟨rfl, rfl, h.setS _⟩

theorem readLoop_over (d0 : LogData α) (fuel : Nat) : ∀ (r r' : FR (LogData α)) (line : Str), OverR d0 r r' →
    Alike (OverR d0) (readLoop logSections fuel r line) (readLoop logSections fuel r' line) := by
  induction fuel with
  | zero => intro r r' line _; exact .diverge
  | succ fuel ih =>
    rintro ⟨fid, pos, d⟩ ⟨fid', pos', d'⟩ line ⟨e1, e2, h⟩
    dsimp only at e1 e2
    subst e1 e2
    unfold readLoop
    cases getline fid' line with
    | mk line fid =>
      dsimp only
      refine Alike.ite (fun _ => .ok ⟨rfl, rfl, h⟩) fun _ => ?_
      have next : ∀ r r' : FR (LogData α), OverR d0 r r' →
          Alike (OverR d0) (readLoop logSections fuel { r with fid := (tellg r.fid).2, pos := (tellg r.fid).1 } line)
            (readLoop logSections fuel { r' with fid := (tellg r'.fid).2, pos := (tellg r'.fid).1 } line) := by
        rintro ⟨f1, p1, d1⟩ ⟨f2, p2, d2⟩ ⟨e1, e2, h⟩
        dsimp only at e1 e2
        subst e1 e2
        exact ih _ _ _ ⟨rfl, rfl, h⟩
      refine Alike.ite (fun _ => Alike.bind ?_ next) fun _ => next _ _ ⟨rfl, rfl, h⟩
      unfold readSection
      cases hf : (logSections (α := α)).readers.get (startSection (logSections (α := α)).headers line) with
      | none => exact .ub
      | some f => exact logSections_over d0 hf fuel _ _ ⟨rfl, rfl, h⟩

/-- What was known before makes no difference, except where the text is silent. -/
theorem runFrom_over (text : Str) (d0 : LogData α) (fuel : Nat) :
    Alike (Over d0) (runFrom logSections text LogData.empty fuel) (runFrom logSections text d0 fuel) := by
  unfold runFrom
  refine Alike.bind (readLoop_over d0 fuel _ _ _ ⟨rfl, rfl, Over.empty d0⟩) ?_
  rintro r r' ⟨-, -, h⟩
  exact .ok h

/-! ### the first part -/

/-- Reading `text` with `d` known comes to reading `rest` with `d1` known. -/
def Passes (text : Str) (d : LogData α) (rest : Str) (d1 : LogData α) : Prop :=
  ∃ N c, ∀ fuel, N ≤ fuel → runFrom logSections text d (fuel + c) = runFrom logSections rest d1 fuel

theorem Passes.refl (text : Str) (d : LogData α) : Passes text d text d := ⟨0, 0, fun _ _ => rfl⟩

theorem Passes.trans {t1 t2 t3 : Str} {d1 d2 d3 : LogData α} (h1 : Passes t1 d1 t2 d2) (h2 : Passes t2 d2 t3 d3) : Passes t1 d1 t3 d3 := by
  obtain ⟨N1, c1, h1⟩ := h1
  obtain ⟨N2, c2, h2⟩ := h2
  refine ⟨max N1 N2, c2 + c1, fun fuel hf => ?_⟩
  rw [← Nat.add_assoc, h1 _ (by omega), h2 _ (by omega)]

theorem Passes.boring {l : Str} (hl : IsLine l) (hb : startSection (logSections (α := α)).headers l = []) (rest : Str) (d : LogData α) :
    Passes (l ++ '\n' :: rest) d rest d := ⟨0, 1, fun fuel _ => runFrom_boring _ hl hb rest d fuel⟩

theorem Passes.section {l tag : Str} {f : SectionReader (LogData α)} (hl : IsLine l)
    (ht : startSection (logSections (α := α)).headers l = tag) (hne : tag ≠ []) (hf : (logSections (α := α)).readers.get tag = some f)
    {rest rest' : Str} {pos : Option Str} {d d' : LogData α}
    (h1 : Ends (fun n => f n ⟨openText rest, some (l ++ '\n' :: rest), d⟩) (.ok ⟨openText rest', pos, d'⟩)) :
    Passes (l ++ '\n' :: rest) d rest' d' := by
  obtain ⟨-, N, hN⟩ := h1
  refine ⟨N, 1, fun fuel hle => ?_⟩
  have := hN fuel hle
  simp only [] at this
  rw [runFrom_section _ hl ht hne hf, this]
  rfl

theorem Passes.section_bad {l tag : Str} {f : SectionReader (LogData α)} (hl : IsLine l)
    (ht : startSection (logSections (α := α)).headers l = tag) (hne : tag ≠ []) (hf : (logSections (α := α)).readers.get tag = some f)
    {rest : Str} {fid : Stream} {pos : Option Str} {d d' : LogData α}
    (h1 : Ends (fun n => f n ⟨openText rest, some (l ++ '\n' :: rest), d⟩) (.ok ⟨fid, pos, d'⟩))
    (hb : fid.eof = true ∨ fid.fail = true) : Passes (l ++ '\n' :: rest) d [] d' := by
  obtain ⟨-, N, hN⟩ := h1
  refine ⟨N + 1, 1, fun fuel hle => ?_⟩
  have := hN fuel (by omega)
  simp only [] at this
  rw [runFrom_section _ hl ht hne hf, this]
  obtain ⟨k, rfl⟩ : ∃ k, fuel = k + 1 := ⟨fuel - 1, by omega⟩
  rw [runFrom_end]
  exact continueFrom_bad _ _ _ _ _ hb

theorem nextOk_of {spin : Spin} {rest : Str} (h : NoEnergyLine spin (lineAt rest 0)) : NextOk spin rest := by
  rcases text_cases rest with rfl | ⟨hne, hl⟩ | ⟨l, r, hl, rfl⟩
  · exact .inl rfl
  · refine .inr (.inl ⟨hne, hl, ?_⟩)
    rwa [lineAt, textLines_last hl] at h
  · refine .inr (.inr ⟨l, r, rfl, hl, ?_⟩)
    rwa [lineAt, textLines_line hl] at h

theorem firstPart_tail {p : Piece α} {ps : List (Piece α)} {rest : Str} (h : FirstPart (p :: ps) rest) : FirstPart ps rest :=
  ⟨fun q hq => h.1 q (by simp [hq]), fun before spin es following e => h.2 (p :: before) spin es following (by rw [e]; rfl)⟩

theorem firstPart_alone {ps : List (Piece α)} {rest : Str} (h : FirstPart ps rest) : FirstPart ps [] := by
  refine ⟨h.1, fun before spin es following e => ?_⟩
  have := h.2 before spin es following e
  cases hf : following.flatMap Piece.lines with
  | nil =>
    have e1 : lineAt (unlines [] ++ []) 0 = [] := rfl
    rw [e1]
    have key : ∀ p : Str, p ≠ [] → ¬ Contains [] p := by
      rintro p hp ⟨a, b, e⟩
      have := congrArg List.length e
      simp only [List.length_nil, List.length_append] at this
      exact hp (List.length_eq_zero_iff.1 (by omega))
    exact ⟨key _ (by simp), key _ (by simp)⟩
  | cons l ls =>
    have hl : IsLine l := by
      have hm : l ∈ following.flatMap Piece.lines := by rw [hf]; simp
      obtain ⟨q, hq, hl⟩ := List.mem_flatMap.1 hm
      exact piece_lines (h.1 q (by rw [e]; simp [hq])) l hl
    rw [hf, unlines_cons_append, lineAt, textLines_line hl] at this
    rw [unlines_cons_append, lineAt, textLines_line hl]
    exact this

theorem first_part (ps : List (Piece α)) : ∀ d : LogData α, (∀ p ∈ ps, p.Ok) → ∃ d1, ∀ rest, FirstPart ps rest → Passes (logText ps [] ++ rest) d rest d1 := by
  induction ps with
  | nil =>
    intro d _
    exact ⟨d, fun rest _ => Passes.refl rest d⟩
  | cons p ps ih =>
    intro d hok
    have hp := hok p (by simp)
    replace ih := fun d => ih d (fun q hq => hok q (by simp [hq]))
    have etext : ∀ rest, logText (p :: ps) [] ++ rest = unlines p.lines ++ (logText ps [] ++ rest) := by
      intro rest
      unfold logText; rw [List.flatMap_cons, unlines_append]; simp only [List.append_nil, List.append_assoc]
    simp only [etext]
    cases p with
    | plain l =>
      obtain ⟨d1, h1⟩ := ih d
      refine ⟨d1, fun rest hr => Passes.trans ?_ (h1 rest (firstPart_tail hr))⟩
      rw [Piece.lines, unlines_cons_append, unlines_nil, List.nil_append]
      exact Passes.boring hp.1 (start_plain hp) _ _
    | coords header l2 l3 rows ruler =>
      obtain ⟨g1, g2, g3, g4, g5⟩ := hp
      obtain ⟨d1, h1⟩ := ih { d with xyz := [rows.map (·.2.1), rows.map (·.2.2.1), rows.map (·.2.2.2)] }
      refine ⟨d1, fun rest hr => Passes.trans ?_ (h1 rest (firstPart_tail hr))⟩
      rw [Piece.lines, unlines_cons_append]
      exact Passes.section g1.1 (start_coords g1) (by decide) rfl (coordReader_table g2 g3 rows g4 ruler g5 _ _ d)
    | energies spin es =>
      obtain ⟨d1, h1⟩ := ih (withEnergies d spin es)
      refine ⟨d1, fun rest hr => Passes.trans ?_ (h1 rest (firstPart_tail hr))⟩
      have hno : NextOk spin (logText ps [] ++ rest) := by
        apply nextOk_of
        have := hr.2 [] spin es ps rfl
        unfold logText
        rwa [List.append_nil]
      obtain ⟨e0, es', he, ho⟩ := hp.2
      have hline := (hp.1 e0 (by rw [he]; simp)).1
      have hr := fun fid hf => readOrbEnergies_table spin es hp (logText ps [] ++ rest) hno d fid hf
      have etx : unlines (Piece.lines (α := α) (.energies spin es)) ++ (logText ps [] ++ rest) =
          EnergyLine.text spin e0 ++ '\n' :: (unlines (es'.map (EnergyLine.text spin)) ++ (logText ps [] ++ rest)) := by
        rw [Piece.lines, he, List.map_cons, unlines_cons_append]
      have etx2 : unlines (es.map (EnergyLine.text spin)) ++ (logText ps [] ++ rest) =
          EnergyLine.text spin e0 ++ '\n' :: (unlines (es'.map (EnergyLine.text spin)) ++ (logText ps [] ++ rest)) := etx
      rw [etx]
      rw [etx2] at hr
      have hr := hr (openText (unlines (es'.map (EnergyLine.text spin)) ++ (logText ps [] ++ rest))) rfl
      have hst := start_energies (α := α) spin hline ho
      unfold afterTable at hr
      by_cases hnil : logText ps [] ++ rest = []
      · rw [if_pos hnil] at hr
        rw [hnil] at hr ⊢
        cases spin
        · exact Passes.section_bad (text_isLine _ hline) hst (by decide) rfl hr (.inr rfl)
        · exact Passes.section_bad (text_isLine _ hline) hst (by decide) rfl hr (.inr rfl)
      · rw [if_neg hnil] at hr
        cases spin
        · exact Passes.section (text_isLine _ hline) hst (by decide) rfl hr
        · exact Passes.section (text_isLine _ hline) hst (by decide) rfl hr
    | overlap header n S blocks next =>
      obtain ⟨g1, g2, g3, g4, g5, g6⟩ := hp
      have hst : 5 < n ∨ splitSt next = [] ∨ ∃ w ws i, splitSt next = w :: ws ∧ stoi w = .ok i ∧ i ≠ (n : Int) + 1 := by
        rcases g6 with h | h | ⟨w, ws, i, hl, hi, hr1, hr2, hne⟩
        · exact .inl h
        · exact .inr (.inl h.split)
        · exact .inr (.inr ⟨w, ws, i, hl.split, (Args.C67_stoi w).1 i hi ⟨hr1, hr2⟩, hne⟩)
      have etx : ∀ rest, unlines (Piece.lines (.overlap header n S blocks next)) ++ (logText ps [] ++ rest) =
          header ++ '\n' :: blocksText blocks (next ++ '\n' :: (logText ps [] ++ rest)) := by
        intro rest
        rw [Piece.lines, unlines_cons_append, unlines_append]
        simp [blocksText, unlines_cons]
      have table := fun rest => overlapReader_table g4 (rest := next ++ '\n' :: (logText ps [] ++ rest))
        (fun prev => getline_line g5 (logText ps [] ++ rest) prev) hst
        (some (header ++ '\n' :: blocksText blocks (next ++ '\n' :: (logText ps [] ++ rest)))) d
      obtain ⟨m, hm, -⟩ := table []
      obtain ⟨d1, h1⟩ := ih { d with S := some m }
      refine ⟨d1, fun rest hr => Passes.trans ?_ (h1 rest (firstPart_tail hr))⟩
      obtain ⟨m', hm', hends⟩ := table rest
      obtain rfl := hm.ext hm'
      rw [etx]
      exact Passes.section g1 (start_overlap g2 g3) (by decide) rfl hends
    | population header l2 atoms last =>
      obtain ⟨g1, g2, g3, g4, g5, g6⟩ := hp
      obtain ⟨d1, h1⟩ := ih { d with orb := addAtoms d.orb 1 atoms }
      refine ⟨d1, fun rest hr => Passes.trans ?_ (h1 rest (firstPart_tail hr))⟩
      rw [Piece.lines, unlines_cons_append]
      exact Passes.section g1 (start_population g2) (by decide) rfl (aoReader_table g3 atoms g4 g5 g6 _ _ d)

/-! ### what is known in the end -/

theorem or_joined {β γ : Type} (f : Option β → Res γ) (g : β → γ) (h1 : ∀ b, f (some b) = .ok (g b)) (h0 : ∀ c, f none ≠ .ok c)
    {x y z : Option β} (h : z = x.or y) : (∀ v, f x = .ok v → f z = .ok v) ∧ ((∀ v, f x ≠ .ok v) → f z = f y) := by
  subst h
  cases x with
  | none => exact ⟨fun v hv => absurd hv (h0 v), fun _ => rfl⟩
  | some b => exact ⟨fun v hv => hv, fun hv => absurd (h1 b) (hv _)⟩

theorem Over.joined {d0 d d' : LogData α} (h : Over d0 d d') : Joined d0 d d' := by
  refine ⟨h.xyz, ?_, fun key => ?_, fun key => ?_, ?_⟩
  · exact or_joined (fun o : Option (Mat α) => match o with | some m => Res.ok m | none => Res.ub) id (fun _ => rfl) (by simp) h.S
  · exact or_joined (fun o : Option (List α) => match o with | some m => Res.ok m | none => Res.throw .outOfRange) id (fun _ => rfl) (by simp) (h.oe key)
  · exact or_joined (fun o : Option Int => match o with | some m => Res.ok m | none => Res.throw .outOfRange) id (fun _ => rfl) (by simp) (h.homo key)
  · simp only [LogData.getBasisFuncCount, List.map_eq_nil_iff]
    exact ⟨fun e => by rw [h.orb.1 e], fun e => by rw [h.orb.2 e]⟩

theorem Passes.ends {text rest : Str} {d d1 : LogData α} (h : Passes text d rest d1) {out : Res (LogData α)}
    (he : Ends (runFrom logSections rest d1) out) : Ends (runFrom logSections text d) out := by
  obtain ⟨N, c, h⟩ := h
  obtain ⟨hne, M, he⟩ := he
  refine ⟨hne, max N M + c, fun fuel hf => ?_⟩
  have := h (fuel - c) (by omega)
  rw [Nat.sub_add_cancel (by omega)] at this
  rw [this, he _ (by omega)]

theorem runFrom_mono (text : Str) (d : LogData α) : Mono (runFrom logSections text d) :=
  fun n m hle => Le.bind (readLoop_mono logSections_mono n m hle _ _) (fun _ => Le.refl _)

theorem Passes.hangs {text rest : Str} {d d1 : LogData α} (h : Passes text d rest d1)
    (he : Hangs (runFrom logSections rest d1)) : Hangs (runFrom logSections text d) := by
  obtain ⟨N, c, h⟩ := h
  intro fuel
  have h1 := h (max N fuel) (by omega)
  rw [he] at h1
  by_cases hd : runFrom logSections text d fuel = .diverge
  · exact hd
  · rw [runFrom_mono text d fuel (max N fuel + c) (by omega) hd] at h1
    exact h1

/-! ### the claims -/

/-- **C118.** A log file `ac` consists of the text of `a`, which is made of complete tables and lines of no interest, and the text
of `b`, of which nothing is assumed. Then `a` alone is read; if `b` alone is read, so is `ac`, and gives what `b` says and, where `b`
is silent, what `a` says; if `b` alone fails, `ac` fails in the same way; if `b` alone is read for ever, so is `ac`. -/
theorem C118_parts (fs : Str → Option Str) (a b ab : Str) (ps : List (Piece α)) (rest : Str) (hps : FirstPart ps rest)
    (ha : Fits a ∧ PlainName (lit ".log") a ∧ fs a = some (logText ps []))
    (hb : Fits b ∧ PlainName (lit ".log") b ∧ fs b = some rest)
    (hab : Fits ab ∧ PlainName (lit ".log") ab ∧ fs ab = some (logText ps [] ++ rest)) :
    ∃ d0 : LogData α, Ends (fun n => readLog fs n a) (.ok d0) ∧
      (∀ d, Ends (fun n => readLog fs n b) (.ok d) → ∃ d', Ends (fun n => readLog fs n ab) (.ok d') ∧ Joined d0 d d') ∧
      (∀ out : Res (LogData α), (∀ d, out ≠ .ok d) → Ends (fun n => readLog fs n b) out → Ends (fun n => readLog fs n ab) out) ∧
      (Hangs (fun n => (readLog fs n b : Res (LogData α))) → Hangs (fun n => (readLog fs n ab : Res (LogData α)))) := by
  rw [readLog_eq fs a _ ha.1 ha.2.1 ha.2.2, readLog_eq fs b _ hb.1 hb.2.1 hb.2.2, readLog_eq fs ab _ hab.1 hab.2.1 hab.2.2]
  obtain ⟨d0, h0⟩ := first_part ps LogData.empty hps.1
  have h2 := h0 rest hps
  have h1 := h0 [] (firstPart_alone hps)
  rw [List.append_nil] at h1
  refine ⟨d0, h1.ends (run_end _ _), ?_, ?_, ?_⟩
  · rintro d ⟨-, N, hd⟩
    have key : ∀ fuel, N ≤ fuel → ∃ d', runFrom logSections rest d0 fuel = .ok d' ∧ Over d0 d d' := by
      intro fuel hf
      have := runFrom_over rest d0 fuel
      rw [hd fuel hf] at this
      generalize runFrom logSections rest d0 fuel = y at this
      cases this with
      | ok h => exact ⟨_, rfl, h⟩
    obtain ⟨d', e, ho⟩ := key N (Nat.le_refl N)
    refine ⟨d', h2.ends ⟨by simp, N, fun fuel hf => ?_⟩, ho.joined⟩
    rw [← e]
    exact runFrom_mono rest d0 N fuel hf (by rw [e]; simp)
  · rintro out hno ⟨hne, N, hd⟩
    refine h2.ends ⟨hne, N, fun fuel hf => ?_⟩
    have := runFrom_over rest d0 fuel
    rw [hd fuel hf] at this
    generalize runFrom logSections rest d0 fuel = y at this ⊢
    cases this with
    | ok h => exact absurd rfl (hno _)
    | _ => rfl
  · intro hd
    refine h2.hangs fun fuel => ?_
    have := runFrom_over rest d0 fuel
    rw [hd fuel] at this
    generalize runFrom logSections rest d0 fuel = y at this ⊢
    cases this
    rfl

/-- A table of energies that breaks off the first part is the only thing to look after. -/
theorem firstPart_of {ps : List (Piece α)} (h : LogFile ps []) {rest : Str}
    (hl : ∀ before spin es, ps = before ++ [.energies spin es] → NoEnergyLine spin (lineAt rest 0)) : FirstPart ps rest := by
  refine ⟨h.1, fun before spin es following e => ?_⟩
  cases following with
  | nil => exact hl before spin es e
  | cons p ps' =>
    cases hf : (p :: ps').flatMap Piece.lines with
    | nil =>
      exfalso
      have hp := h.1 p (by rw [e]; simp)
      rw [List.flatMap_cons, List.append_eq_nil_iff] at hf
      cases p with
      | energies s es' =>
        obtain ⟨e0, es0, he, -⟩ := hp.2
        have hf := hf.1
        rw [Piece.lines, he] at hf
        cases hf
      | _ => cases hf.1
    | cons l ls =>
      have hl : IsLine l := by
        have hm : l ∈ (p :: ps').flatMap Piece.lines := by rw [hf]; simp
        obtain ⟨q, hq, hl⟩ := List.mem_flatMap.1 hm
        refine piece_lines (h.1 q ?_) l hl
        rw [e]
        exact List.mem_append_right _ (List.mem_cons_of_mem _ hq)
      have := h.2.2 before spin es (p :: ps') e l (by rw [hf]; rfl)
      rw [unlines_cons_append, lineAt, textLines_line hl]
      exact this

end

/-! ### examples -/

private def abc (rest : Str) : Str → Option Str
  | ['a', '.', 'l', 'o', 'g'] => some (logText sampleLog [])
  | ['b', '.', 'l', 'o', 'g'] => some rest
  | ['c', '.', 'l', 'o', 'g'] => some (logText sampleLog [] ++ rest)
  | _ => none

private theorem sample_first (rest : Str) : FirstPart sampleLog rest :=
  firstPart_of sample_log (fun before spin es e => by
    have := congrArg List.getLast? e
    rw [List.getLast?_append, List.getLast?_singleton] at this
    cases this)

private theorem name_of (c : Char) (h : c ≠ '/' ∧ c ≠ '.') : Fits (c :: (lit ".log")) ∧ PlainName (lit ".log") (c :: (lit ".log")) :=
  ⟨by unfold Fits; simp, [], [c], [], rfl, .inl rfl, by simpa using h.1.symm, by simpa using h.2.symm, by simp⟩

private def abc_parts (rest : Str) := C118_parts (abc rest) (lit "a.log") (lit "b.log") (lit "c.log") sampleLog rest (sample_first rest)
  ⟨(name_of 'a' (by decide)).1, (name_of 'a' (by decide)).2, rfl⟩ ⟨(name_of 'b' (by decide)).1, (name_of 'b' (by decide)).2, rfl⟩
  ⟨(name_of 'c' (by decide)).1, (name_of 'c' (by decide)).2, rfl⟩

private def newRows : Piece Int :=
  .coords sampleHeader1 (lit " Number") (lit " ---") [((lit " 1 6 0 70 80 90"), 70, 80, 90)] sampleRuler

/-- A second part that lists positions only: they replace those of the first part, everything else stays. -/
example : ∃ d0 d' : LogData Int, Ends (fun n => readLog (abc (logText [newRows] [])) n (lit "a.log")) (.ok d0) ∧
    Ends (fun n => readLog (abc (logText [newRows] [])) n (lit "c.log")) (.ok d') ∧ d'.getCoords = [[70], [80], [90]] ∧
    d'.getOverlapMatrix = d0.getOverlapMatrix ∧ (∀ key, d'.getOE key = d0.getOE key) ∧ (∀ key, d'.getHOMOLevel key = d0.getHOMOLevel key) ∧
    d'.getBasisFuncCount = d0.getBasisFuncCount := by
  obtain ⟨d0, h0, h1, -, -⟩ := abc_parts (logText [newRows] [])
  have hrow : CoordRow ((lit " 1 6 0 70 80 90"), (70 : Int), (80 : Int), (90 : Int)) :=
    ⟨isLine_of (by decide), not_contains_of (by decide), _, _, _, _, _, _, _, layout_splitSt _, by decide, by decide, by decide⟩
  have hb : Ends (fun n => (readLog (abc (logText [newRows] [])) n (lit "b.log") : Res (LogData Int)))
      (.ok { LogData.empty with xyz := [[70], [80], [90]] }) := by
    rw [readLog_eq _ _ (logText [newRows] []) (name_of 'b' (by decide)).1 (name_of 'b' (by decide)).2 rfl]
    have et : logText [newRows] [] = sampleHeader1 ++ '\n' :: (unlines ([(lit " Number"), (lit " ---")] ++
      ([((lit " 1 6 0 70 80 90"), (70 : Int), (80 : Int), (90 : Int))] : List (Str × Int × Int × Int)).map (·.1) ++ [sampleRuler]) ++ []) := by decide +kernel
    rw [et]
    exact run_section _ sample_headers.1.1 (start_coords sample_headers.1) (by decide) rfl
      (coordReader_table (isLine_of (by decide)) (isLine_of (by decide)) _ (by simpa using hrow) sampleRuler sample_headers.2.2 [] _ _) (run_end _ _)
  obtain ⟨d', e, j⟩ := h1 _ hb
  exact ⟨d0, d', h0, e, j.coords.1 (by decide), j.overlap.2 (by simp [LogData.getOverlapMatrix, LogData.empty]),
    fun key => (j.energies key).2 (by simp [LogData.getOE, LogData.empty, Map.get]),
    fun key => (j.homo key).2 (by simp [LogData.getHOMOLevel, LogData.empty, Map.get]), j.basis.2 rfl⟩

private def broken : Str := sampleHeader1 ++ '\n' :: (lit " Number\n ------\n 1 6 0 10 x 30\n")

/-- A second part with a broken table. -/
example : Ends (fun n => (readLog (abc broken) n (lit "c.log") : Res (LogData Int))) (.throw .invalidArgument) := by
  obtain ⟨d0, h0, -, h1, -⟩ := abc_parts broken
  refine h1 _ (by simp) (C117_bad_row (abc broken) (lit "b.log") broken (lit " Number\n ------\n 1 6 0 10 x 30\n") (name_of 'b' (by decide)).1
    (name_of 'b' (by decide)).2 rfl ⟨[], sampleHeader1, by simp, sample_headers.1, .inl rfl⟩ 2 (by omega) (fun j h1 h2 => by omega) _ ?_)
  exact ⟨isLine_of (by decide), not_contains_of (by decide), _, layout_splitSt _, 4, by omega, by omega,
      fun j h1 h2 => by have : j = 3 := by omega
                        subst this; exact ⟨(lit "10"), 10, by decide, by decide⟩, .inr ⟨(lit "x"), by decide, by decide⟩⟩

end Verif.Readers
