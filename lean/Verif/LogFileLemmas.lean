import Verif.Spec.LogFile
import Verif.OverlapLemmas
import Verif.PopulationLemmas
/-
Reading a whole log file.
-/
namespace Verif.Readers
open Strings Log Mat

variable {α : Type} [Mul α] [Num α] [Zero α]

/-! ### which table a line announces -/

/-- The headers, independent of the numbers. -/
def logHeaders : Map (List Str) := [
    ((lit "AOFunction"), [(lit "     Gross orbital populations:")]),
    ((lit "Coord"), [(lit "Center     Atomic      Atomic"), (lit "Center     Atomic     Atomic")]),
    ((lit "OEAlpha"), [(lit " Alpha  occ. eigenvalues --")]),
    ((lit "OEBeta"), [(lit "  Beta  occ. eigenvalues --")]),
    ((lit "Overlap"), [(lit " *** Overlap ***")])]

theorem headers_eq : (logSections (α := α)).headers = logHeaders := rfl

theorem start_plain {l : Str} (h : Plain l) : startSection (logSections (α := α)).headers l = [] := by
  apply startSection_none
  intro th hth p hp
  apply h.2
  have key : ∀ th ∈ logHeaders, ∀ p ∈ th.2, p ∈ announcements := by decide
  exact key th hth p hp

theorem start_of {l tag : Str} {before after : Map (List Str)} {hs : List Str}
    (e : (logSections (α := α)).headers = before ++ (tag, hs) :: after)
    (hb : ∀ th ∈ before, ∀ p ∈ th.2, ¬ Contains l p) (h : ∃ p ∈ hs, Contains l p) :
    startSection (logSections (α := α)).headers l = tag := by
  unfold startSection
  rw [e, List.find?_append]
  have h1 : before.find? (fun th => th.2.any (fun header => foundSubStrInStr l header)) = none := by
    rw [List.find?_eq_none]
    intro th hth
    simp only [List.any_eq_true, not_exists, not_and]
    intro p hp hf
    exact hb th hth p hp (found_contains.1 hf)
  rw [h1, List.find?_cons_of_pos]
  · rfl
  · obtain ⟨p, hp, hc⟩ := h
    simp only [List.any_eq_true]
    exact ⟨p, hp, found_contains.2 hc⟩

theorem start_population {l : Str} (h : Contains l (lit "     Gross orbital populations:")) :
    startSection (logSections (α := α)).headers l = (lit "AOFunction") :=
  start_of (before := []) rfl (by simp) ⟨_, by simp, h⟩

theorem start_coords {l : Str} (h : CoordHeader l) : startSection (logSections (α := α)).headers l = (lit "Coord") := by
  refine start_of (before := [((lit "AOFunction"), [(lit "     Gross orbital populations:")])]) rfl ?_ ?_
  · intro th hth p hp
    simp only [List.mem_singleton] at hth
    subst hth
    simp only [List.mem_singleton] at hp
    subst hp
    exact h.2.2
  · rcases h.2.1 with h | h
    · exact ⟨_, by simp, h⟩
    · exact ⟨_, List.mem_cons_of_mem _ (List.mem_singleton.2 rfl), h⟩

theorem start_overlap {l : Str} (h : Contains l (lit " *** Overlap ***"))
    (hn : ∀ p ∈ announcements, p ≠ (lit " *** Overlap ***") → ¬ Contains l p) :
    startSection (logSections (α := α)).headers l = (lit "Overlap") := by
  refine start_of (before := (logSections (α := α)).headers.dropLast) rfl ?_ ⟨_, by simp, h⟩
  intro th hth p hp
  have : p ∈ announcements ∧ p ≠ (lit " *** Overlap ***") := by
    have key : ∀ th ∈ logHeaders.dropLast, ∀ p ∈ th.2, p ∈ announcements ∧ p ≠ (lit " *** Overlap ***") := by decide
    exact key th hth p hp
  exact hn p this.1 this.2

theorem start_energies (spin : Spin) {e : EnergyLine} (h : EnergyFields e.2) (ho : e.1 = true) :
    startSection (logSections (α := α)).headers (EnergyLine.text spin e) =
      match spin with | .alpha => (lit "OEAlpha") | .beta => (lit "OEBeta") := by
  obtain ⟨o, f⟩ := e
  subst ho
  have nG : 'G' ∉ EnergyLine.text spin (true, f) := text_not spin h 'G' (by cases spin <;> (simp only []; decide)) (by simp only [eq_iff_iff, iff_false]; decide)
  have nC : 'C' ∉ EnergyLine.text spin (true, f) := text_not spin h 'C' (by cases spin <;> (simp only []; decide)) (by simp only [eq_iff_iff, iff_false]; decide)
  cases spin with
  | alpha =>
    refine start_of (before := (logSections (α := α)).headers.take 2) rfl ?_ ⟨_, List.mem_singleton.2 rfl, [], ' ' :: fieldsText f, rfl⟩
    intro th hth p hp
    have key : ∀ th ∈ logHeaders.take 2, ∀ p ∈ th.2, 'G' ∈ p ∨ 'C' ∈ p := by decide
    have := key th hth p hp
    rcases this with hc | hc
    · exact not_contains_of_char hc nG
    · exact not_contains_of_char hc nC
  | beta =>
    have nA : 'A' ∉ EnergyLine.text .beta (true, f) := text_not .beta h 'A' (by simp only []; decide) (by simp only [eq_iff_iff, iff_false]; decide)
    refine start_of (before := (logSections (α := α)).headers.take 3) rfl ?_ ⟨_, List.mem_singleton.2 rfl, [], ' ' :: fieldsText f, rfl⟩
    intro th hth p hp
    have key : ∀ th ∈ logHeaders.take 3, ∀ p ∈ th.2, 'G' ∈ p ∨ 'C' ∈ p ∨ 'A' ∈ p := by decide
    have := key th hth p hp
    rcases this with hc | hc | hc
    · exact not_contains_of_char hc nG
    · exact not_contains_of_char hc nC
    · exact not_contains_of_char hc nA

/-! ### what the pieces do -/

/-- What reading some pieces does to the members of the reader. -/
structure Effect (ps : List (Piece α)) (d d' : LogData α) : Prop where
  oe : ∀ spin : Spin, d'.oe.get spin.name = (lastEnergies spin ps).elim (d.oe.get spin.name) (fun es => some ((energies es).map Num.atof))
  homo : ∀ spin : Spin, d'.homo.get spin.name = (lastEnergies spin ps).elim (d.homo.get spin.name) (fun es => some (occupied es : Int))
  xyz : d'.xyz = (lastCoords ps).elim d.xyz (fun rows => [rows.map (·.1), rows.map (·.2.1), rows.map (·.2.2)])
  S : (lastOverlap ps = none ∧ d'.S = d.S) ∨
    ∃ n S m, lastOverlap ps = some (n, S) ∧ d'.S = some m ∧ IsMat m n n 1 (fun i j _ => symm S i j)
  orb : d'.orb = (populations ps).foldl (fun o atoms => addAtoms o 1 atoms) d.orb

theorem Effect.nil (d : LogData α) : Effect [] d d :=
  ⟨fun _ => rfl, fun _ => rfl, rfl, .inl ⟨rfl, rfl⟩, rfl⟩

theorem last_energies_cons (spin : Spin) (p : Piece α) (ps : List (Piece α)) :
    lastEnergies spin (p :: ps) = (lastEnergies spin ps).orElse (fun _ => lastEnergies spin [p]) := by
  cases p <;> simp only [lastEnergies]
  case energies s es =>
    by_cases h : s = spin
    · simp only [h, if_true]; cases lastEnergies spin ps <;> rfl
    · simp only [h, if_false]; cases lastEnergies spin ps <;> rfl
  all_goals cases lastEnergies spin ps <;> rfl

theorem last_coords_cons (p : Piece α) (ps : List (Piece α)) :
    lastCoords (p :: ps) = (lastCoords ps).orElse (fun _ => lastCoords [p]) := by
  cases p <;> simp only [lastCoords] <;> cases lastCoords ps <;> rfl

theorem last_overlap_cons (p : Piece α) (ps : List (Piece α)) :
    lastOverlap (p :: ps) = (lastOverlap ps).orElse (fun _ => lastOverlap [p]) := by
  cases p <;> simp only [lastOverlap] <;> cases lastOverlap ps <;> rfl

theorem populations_cons (p : Piece α) (ps : List (Piece α)) : populations (p :: ps) = populations [p] ++ populations ps := by
  cases p <;> rfl

theorem Effect.cons {p : Piece α} {ps : List (Piece α)} {d d1 d2 : LogData α} (h1 : Effect [p] d d1) (h2 : Effect ps d1 d2) :
    Effect (p :: ps) d d2 := by
  refine ⟨fun spin => ?_, fun spin => ?_, ?_, ?_, ?_⟩
  · rw [h2.oe, h1.oe, last_energies_cons spin p ps]; cases lastEnergies spin ps <;> rfl
  · rw [h2.homo, h1.homo, last_energies_cons spin p ps]; cases lastEnergies spin ps <;> rfl
  · rw [h2.xyz, h1.xyz, last_coords_cons p ps]; cases lastCoords ps <;> rfl
  · rw [last_overlap_cons p ps]
    rcases h2.S with ⟨e, hd⟩ | ⟨n, S, m, e, hd, hm⟩
    · rw [e, hd]; exact h1.S
    · rw [e]; exact .inr ⟨n, S, m, rfl, hd, hm⟩
  · rw [h2.orb, h1.orb, populations_cons p ps, List.foldl_append]

theorem Effect.plain (l : Str) (d : LogData α) : Effect [.plain l] d d :=
  ⟨fun _ => rfl, fun _ => rfl, rfl, .inl ⟨rfl, rfl⟩, rfl⟩

theorem spin_name_inj {a b : Spin} (h : a.name = b.name) : a = b := by
  cases a <;> cases b <;> first | rfl | (exact absurd h (by decide))

theorem Effect.energies (spin : Spin) (es : List EnergyLine) (d : LogData α) : Effect [.energies spin es] d (withEnergies d spin es) := by
  refine ⟨fun s => ?_, fun s => ?_, rfl, .inl ⟨rfl, rfl⟩, rfl⟩
  · unfold withEnergies
    simp only [Map.get_set, lastEnergies]
    by_cases h : spin = s
    · subst h; simp
    · rw [if_neg (fun e => h (spin_name_inj e.symm)), if_neg h]; rfl
  · unfold withEnergies
    simp only [Map.get_set, lastEnergies]
    by_cases h : spin = s
    · subst h; simp
    · rw [if_neg (fun e => h (spin_name_inj e.symm)), if_neg h]; rfl

/-! ### the whole file -/

theorem head_lines (ls : List Str) (hl : ∀ l ∈ ls, IsLine l) (tail : Str) (ht : IsLine tail) {spin : Spin}
    (h : ∀ l, (ls ++ (if tail = [] then [] else [tail])).head? = some l → NoEnergyLine spin l) : NextOk spin (unlines ls ++ tail) := by
  cases ls with
  | nil =>
    simp only [List.nil_append, unlines_nil] at h ⊢
    by_cases he : tail = []
    · exact .inl he
    · rw [if_neg he] at h
      exact .inr (.inl ⟨he, ht, h tail rfl⟩)
  | cons l ls =>
    right; right
    refine ⟨l, unlines ls ++ tail, unlines_cons_append _ _ _, hl l (by simp), h l rfl⟩

theorem plain_tail {tail : Str} (h : tail = [] ∨ Plain tail) : IsLine tail := by
  rcases h with rfl | h
  · exact (by simp [IsLine])
  · exact h.1

theorem overlap_lines {n : Nat} {S : Nat → Nat → α} {blocks : List (Str × List Str)} (h : OverlapTable n S blocks) :
    ∀ l ∈ blocks.flatMap (fun b => b.1 :: b.2), IsLine l := by
  intro l hl
  rw [List.mem_flatMap] at hl
  obtain ⟨b, hb, hl⟩ := hl
  obtain ⟨k, hk, rfl⟩ := List.mem_iff_getElem.1 hb
  obtain ⟨h1, -, -, h4⟩ := h.2.2.2 k hk
  rcases List.mem_cons.1 hl with rfl | hl
  · exact h1
  · obtain ⟨q, hq, rfl⟩ := List.mem_iff_getElem.1 hl
    exact (h4 q hq).1

theorem piece_lines {p : Piece α} (h : p.Ok) : ∀ l ∈ p.lines, IsLine l := by
  cases p with
  | plain l => intro x hx; rw [List.mem_singleton.1 hx]; exact h.1
  | coords header l2 l3 rows ruler =>
    obtain ⟨h1, h2, h3, h4, h5⟩ := h
    intro x hx
    simp only [Piece.lines, List.mem_cons, List.mem_append, List.mem_map, List.not_mem_nil, or_false] at hx
    rcases hx with rfl | rfl | rfl | ⟨r, hr, rfl⟩ | rfl
    · exact h1.1
    · exact h2
    · exact h3
    · exact (h4 r hr).1
    · exact h5.1
  | energies spin es =>
    intro x hx
    obtain ⟨e, he, rfl⟩ := List.mem_map.1 hx
    exact text_isLine spin (h.1 e he).1
  | overlap header n S blocks next =>
    obtain ⟨h1, h2, h3, h4, h5, h6⟩ := h
    intro x hx
    simp only [Piece.lines, List.mem_cons, List.mem_append, List.not_mem_nil, or_false] at hx
    rcases hx with rfl | hx | rfl
    · exact h1
    · exact overlap_lines h4 x hx
    · exact h5
  | population header l2 atoms last =>
    obtain ⟨h1, h2, h3, h4, h5, h6⟩ := h
    intro x hx
    simp only [Piece.lines, List.mem_cons, List.mem_append, List.mem_flatMap, List.mem_map, List.not_mem_nil, or_false] at hx
    rcases hx with rfl | rfl | ⟨a, ha, f, hf, rfl⟩ | rfl
    · exact h1
    · exact h3
    · obtain ⟨g1, g2⟩ := h5 a ha
      rcases List.mem_cons.1 hf with rfl | hf
      · exact g1.1
      · exact (g2 f hf).1
    · exact h6.1

theorem run_pieces (ps : List (Piece α)) (tail : Str) (h : LogFile ps tail) (d : LogData α) :
    ∃ d', Effect ps d d' ∧ Ends (runFrom logSections (logText ps tail) d) (.ok d') := by
  induction ps generalizing d with
  | nil =>
    refine ⟨d, Effect.nil d, ?_⟩
    unfold logText
    simp only [List.flatMap_nil, unlines_nil, List.nil_append]
    rcases h.2.1 with rfl | hp
    · exact run_end _ d
    · by_cases he : tail = []
      · rw [he]; exact run_end _ d
      · exact Ends.of_le 2 (by simp) (fun fuel => runFrom_last _ hp.1 he (start_plain hp) d fuel)
  | cons p ps ih =>
    obtain ⟨hok, htail, hnext⟩ := h
    have hrest : LogFile ps tail := ⟨fun q hq => hok q (by simp [hq]), htail, fun before spin es following e =>
      hnext (p :: before) spin es following (by rw [e]; rfl)⟩
    have hp := hok p (by simp)
    have etext : logText (p :: ps) tail = unlines p.lines ++ logText ps tail := by
      unfold logText; rw [List.flatMap_cons, unlines_append, List.append_assoc]
    rw [etext]
    cases p with
    | plain l =>
      obtain ⟨d', e1, e2⟩ := ih hrest d
      refine ⟨d', (Effect.plain l d).cons e1, ?_⟩
      rw [Piece.lines, unlines_cons_append, unlines_nil, List.nil_append]
      exact run_boring _ hp.1 (start_plain hp) e2
    | coords header l2 l3 rows ruler =>
      obtain ⟨h1, h2, h3, h4, h5⟩ := hp
      obtain ⟨d', e1, e2⟩ := ih hrest { d with xyz := [rows.map (·.2.1), rows.map (·.2.2.1), rows.map (·.2.2.2)] }
      refine ⟨d', Effect.cons (p := .coords header l2 l3 rows ruler)
        (d1 := { d with xyz := [rows.map (·.2.1), rows.map (·.2.2.1), rows.map (·.2.2.2)] }) ⟨fun _ => rfl, fun _ => rfl, ?_, .inl ⟨rfl, rfl⟩, rfl⟩ e1, ?_⟩
      · simp [lastCoords, Function.comp_def]
      · rw [Piece.lines, unlines_cons_append]
        exact run_section _ h1.1 (start_coords h1) (by decide) rfl (coordReader_table h2 h3 rows h4 ruler h5 _ _ d) e2
    | energies spin es =>
      obtain ⟨d', e1, e2⟩ := ih hrest (withEnergies d spin es)
      refine ⟨d', (Effect.energies spin es d).cons e1, ?_⟩
      have hno : NextOk spin (logText ps tail) := head_lines _ (by
        intro l hl
        obtain ⟨q, hq, hl⟩ := List.mem_flatMap.1 hl
        exact piece_lines (hok q (by simp [hq])) l hl) tail (plain_tail htail) (hnext [] spin es ps rfl)
      obtain ⟨e0, es', he, ho⟩ := hp.2
      have hline := (hp.1 e0 (by rw [he]; simp)).1
      have hr := fun fid hf => readOrbEnergies_table spin es hp (logText ps tail) hno d fid hf
      have etx : unlines (Piece.lines (α := α) (.energies spin es)) ++ logText ps tail =
          EnergyLine.text spin e0 ++ '\n' :: (unlines (es'.map (EnergyLine.text spin)) ++ logText ps tail) := by
        rw [Piece.lines, he, List.map_cons, unlines_cons_append]
      have etx2 : unlines (es.map (EnergyLine.text spin)) ++ logText ps tail =
          EnergyLine.text spin e0 ++ '\n' :: (unlines (es'.map (EnergyLine.text spin)) ++ logText ps tail) := etx
      rw [etx]
      rw [etx2] at hr
      have hr := hr (openText (unlines (es'.map (EnergyLine.text spin)) ++ logText ps tail)) rfl
      have hst := start_energies (α := α) spin hline ho
      unfold afterTable at hr
      by_cases hnil : logText ps tail = []
      · rw [if_pos hnil] at hr
        have : d' = withEnergies d spin es := by
          have := Ends.unique e2 (by rw [hnil]; exact run_end _ _)
          injection this
        subst this
        cases spin
        · exact run_section_bad _ (text_isLine _ hline) hst (by decide) rfl hr (.inr rfl)
        · exact run_section_bad _ (text_isLine _ hline) hst (by decide) rfl hr (.inr rfl)
      · rw [if_neg hnil] at hr
        cases spin
        · exact run_section _ (text_isLine _ hline) hst (by decide) rfl hr e2
        · exact run_section _ (text_isLine _ hline) hst (by decide) rfl hr e2
    | overlap header n S blocks next =>
      obtain ⟨h1, h2, h3, h4, h5, h6⟩ := hp
      have hst : 5 < n ∨ splitSt next = [] ∨ ∃ w ws i, splitSt next = w :: ws ∧ stoi w = .ok i ∧ i ≠ (n : Int) + 1 := by
        rcases h6 with h | h | ⟨w, ws, i, hl, hi, hr1, hr2, hne⟩
        · exact .inl h
        · exact .inr (.inl h.split)
        · exact .inr (.inr ⟨w, ws, i, hl.split, (Args.C67_stoi w).1 i hi ⟨hr1, hr2⟩, hne⟩)
      have etx : unlines (Piece.lines (.overlap header n S blocks next)) ++ logText ps tail =
          header ++ '\n' :: blocksText blocks (next ++ '\n' :: logText ps tail) := by
        rw [Piece.lines, unlines_cons_append, unlines_append]
        simp [blocksText, unlines_cons]
      rw [etx]
      obtain ⟨m, hm, hends⟩ := overlapReader_table h4 (rest := next ++ '\n' :: logText ps tail)
        (fun prev => getline_line h5 (logText ps tail) prev) hst
        (some (header ++ '\n' :: blocksText blocks (next ++ '\n' :: logText ps tail))) d
      obtain ⟨d', e1, e2⟩ := ih hrest { d with S := some m }
      refine ⟨d', Effect.cons (p := .overlap header n S blocks next) (d1 := { d with S := some m })
        ⟨fun _ => rfl, fun _ => rfl, rfl, .inr ⟨n, S, m, rfl, rfl, hm⟩, rfl⟩ e1, ?_⟩
      exact run_section _ h1 (start_overlap h2 h3) (by decide) rfl hends e2
    | population header l2 atoms last =>
      obtain ⟨h1, h2, h3, h4, h5, h6⟩ := hp
      obtain ⟨d', e1, e2⟩ := ih hrest { d with orb := addAtoms d.orb 1 atoms }
      refine ⟨d', Effect.cons (p := .population header l2 atoms last) (d1 := { d with orb := addAtoms d.orb 1 atoms })
        ⟨fun _ => rfl, fun _ => rfl, rfl, .inl ⟨rfl, rfl⟩, rfl⟩ e1, ?_⟩
      rw [Piece.lines, unlines_cons_append]
      exact run_section _ h1 (start_population h2) (by decide) rfl (aoReader_table h3 atoms h4 h5 h6 _ _ d) e2

end Verif.Readers
