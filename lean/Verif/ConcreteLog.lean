import Verif.LogFileLemmas
import Verif.ConcreteNum
/-
A small but complete log file, used to show that the hypotheses of the theorems about log files can be met.
-/
namespace Verif.Readers
open Strings Log

theorem layout_of {l : Str} {ws : List Str} (h : splitSt l = ws) : Layout l ws := h ▸ layout_splitSt l

theorem words_of {l : Str} {ws : List Str} (h : splitSt l = ws) (ht : (l.getLast?.map isSpace).getD false = false) : Words l ws :=
  ⟨layout_of h, fun c hc => by rw [hc] at ht; exact ht⟩

theorem isLine_of {l : Str} (h : l.contains '\n' = false) : IsLine l := by
  intro hm
  rw [List.contains_eq_mem, decide_eq_false_iff_not] at h
  exact h hm

theorem plain_of {l : Str} (h1 : l.contains '\n' = false) (h2 : announcements.all (fun p => !foundSubStrInStr l p) = true) : Log.Plain l := by
  refine ⟨isLine_of h1, fun p hp hc => ?_⟩
  have := List.all_eq_true.1 h2 p hp
  rw [found_contains.2 hc] at this
  cases this

theorem contains_of {l p : Str} (h : foundSubStrInStr l p = true) : Contains l p := found_contains.1 h
theorem not_contains_of {l p : Str} (h : foundSubStrInStr l p = false) : ¬ Contains l p := not_found_contains.1 h

/-! ### the tables -/

def sampleRows1 : List (Str × Int × Int × Int) :=
  [((lit "      1          6           0        1.000000    2.000000    3.000000"), 1, 2, 3),
   ((lit "      2          1           0       -4.000000    5.000000   -6.000000"), -4, 5, -6)]

def sampleRows2 : List (Str × Int × Int × Int) :=
  [((lit "      1          6             0       10.000000    20.000000    30.000000"), 10, 20, 30),
   ((lit "      2          1             0       -7.000000    8.000000   -9.000000  "), -7, 8, -9)]

def sampleHeader1 : Str := (lit " Center     Atomic      Atomic             Coordinates (Angstroms)")
def sampleHeader2 : Str := (lit " Center     Atomic     Atomic             Coordinates (Angstroms)")
def sampleRuler : Str := (lit " ---------------------------------------------------------------------")

theorem sample_rows : (∀ r ∈ sampleRows1, CoordRow r) ∧ ∀ r ∈ sampleRows2, CoordRow r := by
  have key : ∀ r : Str × Int × Int × Int, r.1.contains '\n' = false → foundSubStrInStr r.1 (List.replicate 69 '-') = false →
      (∃ a b c x y z more, splitSt r.1 = a :: b :: c :: x :: y :: z :: more ∧
        Num.stod x = .ok r.2.1 ∧ Num.stod y = .ok r.2.2.1 ∧ Num.stod z = .ok r.2.2.2) → CoordRow r := by
    rintro r h1 h2 ⟨a, b, c, x, y, z, more, h3, h4⟩
    exact ⟨isLine_of h1, not_contains_of h2, a, b, c, x, y, z, more, layout_of h3, h4⟩
  constructor
  · intro r hr
    simp only [sampleRows1, List.mem_cons, List.not_mem_nil, or_false] at hr
    rcases hr with rfl | rfl
    · exact key _ (by decide) (by decide) ⟨(lit "1"), (lit "6"), (lit "0"), (lit "1.000000"), (lit "2.000000"), (lit "3.000000"), [],
        by decide, by decide, by decide, by decide⟩
    · exact key _ (by decide) (by decide) ⟨(lit "2"), (lit "1"), (lit "0"), (lit "-4.000000"), (lit "5.000000"), (lit "-6.000000"), [],
        by decide, by decide, by decide, by decide⟩
  · intro r hr
    simp only [sampleRows2, List.mem_cons, List.not_mem_nil, or_false] at hr
    rcases hr with rfl | rfl
    · exact key _ (by decide) (by decide) ⟨(lit "1"), (lit "6"), (lit "0"), (lit "10.000000"), (lit "20.000000"), (lit "30.000000"), [],
        by decide, by decide, by decide, by decide⟩
    · exact key _ (by decide) (by decide) ⟨(lit "2"), (lit "1"), (lit "0"), (lit "-7.000000"), (lit "8.000000"), (lit "-9.000000"), [],
        by decide, by decide, by decide, by decide⟩

theorem sample_headers : CoordHeader sampleHeader1 ∧ CoordHeader sampleHeader2 ∧ Ruler sampleRuler :=
  ⟨⟨isLine_of (by decide), .inl (contains_of (by decide)), not_contains_of (by decide)⟩,
   ⟨isLine_of (by decide), .inr (contains_of (by decide)), not_contains_of (by decide)⟩,
   ⟨isLine_of (by decide), contains_of (by decide)⟩⟩

/-- Energies, some of them run together. -/
def sampleAlpha : List EnergyLine :=
  [(true, [((lit " "), (lit "-10.25")), ([], (lit "-10.24")), ((lit "  "), (lit "-1.5"))]),
   (true, [((lit "  "), (lit "-0.4"))]),
   (false, [((lit "   "), (lit "2.1")), ((lit "   "), (lit "3.2"))])]

def sampleAlpha2 : List EnergyLine :=
  [(true, [([], (lit "-11.25")), ([], (lit "-10.24")), ((lit "  "), (lit "-1.5")), ([], (lit "-1.4")), ((lit " "), (lit "0.2"))]),
   (false, [((lit "   "), (lit "2.1"))])]

def sampleBeta : List EnergyLine := [(true, [((lit " "), (lit "-9.1"))]), (false, [((lit "   "), (lit "1.1"))])]

/-- Checks an energy. -/
def energyOk (t : Str) : Bool :=
  let b := if t.head? = some '-' then t.tail else t
  !b.isEmpty && b.all (fun c => isDigit c || c = '.' || c = '*')

theorem energyText_of {t : Str} (h : energyOk t = true) : EnergyText t := by
  unfold energyOk at h
  simp only [Bool.and_eq_true, Bool.not_eq_true', List.isEmpty_eq_false_iff, List.all_eq_true, Bool.or_eq_true, decide_eq_true_eq] at h
  by_cases hm : t.head? = some '-'
  · rw [if_pos hm] at h
    refine ⟨['-'], t.tail, ?_, .inr rfl, h.1, fun c hc => or_assoc.1 (h.2 c hc)⟩
    cases t with
    | nil => cases hm
    | cons c t => simp only [List.head?_cons, Option.some.injEq] at hm; subst hm; rfl
  · rw [if_neg hm] at h
    exact ⟨[], t, rfl, .inl rfl, h.1, fun c hc => or_assoc.1 (h.2 c hc)⟩

theorem fields_of {f : List (Str × Str)}
    (h1 : f.all (fun p => p.1.all (· = ' ') && energyOk p.2) = true)
    (h2 : f.tail.all (fun p => !p.1.isEmpty || p.2.head? = some '-') = true) : EnergyFields f := by
  constructor
  · intro p hp
    have := List.all_eq_true.1 h1 p hp
    simp only [Bool.and_eq_true] at this
    exact ⟨fun c hc => by simpa using List.all_eq_true.1 this.1 c hc, energyText_of this.2⟩
  · intro p hp
    have := List.all_eq_true.1 h2 p hp
    simpa using this

theorem sample_energies : EnergyTable sampleAlpha ∧ EnergyTable sampleAlpha2 ∧ EnergyTable sampleBeta := by
  refine ⟨⟨?_, _, _, rfl, rfl⟩, ⟨?_, _, _, rfl, rfl⟩, ⟨?_, _, _, rfl, rfl⟩⟩ <;> intro e he
  · simp only [sampleAlpha, List.mem_cons, List.not_mem_nil, or_false] at he
    rcases he with rfl | rfl | rfl <;> exact ⟨fields_of (by decide) (by decide), by decide⟩
  · simp only [sampleAlpha2, List.mem_cons, List.not_mem_nil, or_false] at he
    rcases he with rfl | rfl <;> exact ⟨fields_of (by decide) (by decide), by decide⟩
  · simp only [sampleBeta, List.mem_cons, List.not_mem_nil, or_false] at he
    rcases he with rfl | rfl <;> exact ⟨fields_of (by decide) (by decide), by decide⟩

def sampleS (i j : Nat) : Int := 10 * i + j

def sampleBlocks : List (Str × List Str) :=
  [((lit "                   1             2             3             4             5"),
    [(lit "     1  11.0D+00"),
     (lit "     2  21.0D+00  22.0D+00"),
     (lit "     3  31.0D+00  32.0D+00  33.0D+00"),
     (lit "     4  41.0D+00  42.0D+00  43.0D+00  44.0D+00"),
     (lit "     5  51.0D+00  52.0D+00  53.0D+00  54.0D+00  55.0D+00"),
     (lit "     6  61.0D+00  62.0D+00  63.0D+00  64.0D+00  65.0D+00")]),
   ((lit "                   6"),
    [(lit "     6  66.0D+00")])]

section
variable {α : Type} [Mul α] [Num α] [DecidableEq α]

/-- Checks a number. -/
def fortranOk (t : Str) (v : α) : Bool :=
  match (t.dropWhile (· ≠ 'D')) with
  | 'D' :: e =>
    match (Num.stod (t.takeWhile (· ≠ 'D')) : Res α), (Num.stod e : Res α) with
    | .ok a, .ok b => decide (t.length < 2 ^ 63) && decide (v = a * Num.pow10 b)
    | _, _ => false
  | _ => false

theorem fortran_of {t : Str} {v : α} (h : fortranOk t v = true) : FortranNum t v := by
  unfold fortranOk at h
  split at h
  · rename_i e he
    split at h
    · rename_i a b ha hb
      simp only [Bool.and_eq_true, decide_eq_true_eq] at h
      refine ⟨h.1, t.takeWhile (· ≠ 'D'), e, a, b, ?_, ?_, ha, hb, h.2⟩
      · rw [← he]; exact (List.takeWhile_append_dropWhile).symm
      · have hall : (t.takeWhile (· ≠ 'D')).all (· ≠ 'D') = true := List.all_takeWhile
        intro hm
        have := List.all_eq_true.1 hall _ hm
        simp at this
    · cases h
  · cases h

/-- Checks a row. -/
def rowOk (S : Nat → Nat → α) (k i : Nat) (l : Str) : Bool :=
  !l.contains '\n' && ((l.getLast?.map isSpace).getD false = false) &&
  match splitSt l with
  | d :: ws => d = Nat.toDigits 10 i && ws.length = min 5 (i - 5 * k) &&
    (List.range ws.length).all (fun q => fortranOk (ws.getD q []) (S i (5 * k + 1 + q)))
  | [] => false

theorem row_of {S : Nat → Nat → α} {k i : Nat} {l : Str} (h : rowOk S k i l = true) : OverlapRow S k i l := by
  unfold rowOk at h
  simp only [Bool.and_eq_true, Bool.not_eq_true', decide_eq_true_eq] at h
  obtain ⟨⟨h1, h2⟩, h3⟩ := h
  refine ⟨isLine_of h1, ?_⟩
  split at h3
  · rename_i d ws hs
    simp only [Bool.and_eq_true, decide_eq_true_eq] at h3
    obtain ⟨⟨rfl, h4⟩, h5⟩ := h3
    refine ⟨ws, words_of hs h2, h4, fun q hq => fortran_of ?_⟩
    have := List.all_eq_true.1 h5 q (List.mem_range.2 hq)
    rwa [List.getD_eq_getElem?_getD, List.getElem?_eq_getElem hq] at this
  · cases h3

def blockOk (n : Nat) (S : Nat → Nat → α) (k : Nat) (b : Str × List Str) : Bool :=
  !b.1.contains '\n' && (splitSt b.1).head? = some (Nat.toDigits 10 (5 * k + 1)) && b.2.length = n - 5 * k &&
    (List.range b.2.length).all (fun q => rowOk S k (5 * k + 1 + q) (b.2.getD q []))

theorem block_of {n : Nat} {S : Nat → Nat → α} {k : Nat} {b : Str × List Str} (h : blockOk n S k b = true) : OverlapBlock n S k b := by
  unfold blockOk at h
  simp only [Bool.and_eq_true, Bool.not_eq_true', decide_eq_true_eq] at h
  obtain ⟨⟨⟨h1, h2⟩, h3⟩, h4⟩ := h
  refine ⟨isLine_of h1, ?_, h3, fun q hq => row_of ?_⟩
  · cases hs : splitSt b.1 with
    | nil => rw [hs] at h2; cases h2
    | cons d ws =>
      rw [hs] at h2
      simp only [List.head?_cons, Option.some.injEq] at h2
      subst h2
      exact ⟨ws, layout_of hs⟩
  · have := List.all_eq_true.1 h4 q (List.mem_range.2 hq)
    rwa [List.getD_eq_getElem?_getD, List.getElem?_eq_getElem hq] at this

theorem table_of {n : Nat} {S : Nat → Nat → α} {blocks : List (Str × List Str)} (h0 : 1 ≤ n ∧ n < 2 ^ 31 - 1)
    (h1 : blocks.length = (n + 4) / 5)
    (h2 : (List.range blocks.length).all (fun k => blockOk n S k (blocks.getD k ([], []))) = true) : OverlapTable n S blocks := by
  refine ⟨h0.1, h0.2, h1, fun k hk => block_of ?_⟩
  have := List.all_eq_true.1 h2 k (List.mem_range.2 hk)
  rwa [List.getD_eq_getElem?_getD, List.getElem?_eq_getElem hk] at this

theorem pops_of {ws : List Str} {vals : List α} (h1 : ws.length = vals.length)
    (h2 : (List.range ws.length).all (fun q => decide (some (Num.stod (ws.getD q [])) = vals[q]?.map Res.ok) && !isAlphabetical (ws.getD q [])) = true) :
    Populations ws vals := by
  refine ⟨h1, fun q hq hq' => ?_⟩
  have := List.all_eq_true.1 h2 q (List.mem_range.2 hq)
  simp only [Bool.and_eq_true, decide_eq_true_eq, Bool.not_eq_true', List.getD_eq_getElem?_getD,
    List.getElem?_eq_getElem hq, List.getElem?_eq_getElem hq', Option.getD_some, Option.map_some, Option.some.injEq] at this
  refine ⟨this.1, fun hl => ?_⟩
  rw [(alphabetical_iff _).2 hl] at this
  cases this.2

end

theorem sample_overlap : OverlapTable 6 sampleS sampleBlocks := table_of (by omega) (by decide) (by decide)

/-- Two atoms: carbon with three functions, hydrogen with one. -/
def sampleAtoms : List (Atom Int) :=
  [⟨(lit "C"), ⟨(lit "   1 1   C  1S          1.99000   1.00000"), (lit "1S"), [1, 1]⟩,
     [⟨(lit "   2        2S          0.98000   1.00000"), (lit "2S"), [0, 1]⟩,
      ⟨(lit "   3        2PX         0.77000   2.00000"), (lit "2PX"), [0, 2]⟩]⟩,
   ⟨(lit "H"), ⟨(lit "   4 2   H  1S          0.61000   0.00000"), (lit "1S"), [0, 0]⟩, []⟩]

theorem sample_atoms : ∀ a ∈ sampleAtoms, AtomRows a := by
  intro a ha
  simp only [sampleAtoms, List.mem_cons, List.not_mem_nil, or_false] at ha
  rcases ha with rfl | rfl
  · refine ⟨⟨isLine_of (by decide), not_contains_of (by decide), ⟨by decide, by decide⟩,
      ⟨(lit "1"), (lit "1"), [(lit "1.99000"), (lit "1.00000")], words_of (by decide) (by decide), pops_of rfl (by decide)⟩,
      (lit "   1 1   "), 'C', ' ', (lit " 1S          1.99000   1.00000"), by decide, by decide, .inr (.inl (by decide))⟩, ?_⟩
    intro f hf
    simp only [List.mem_cons, List.not_mem_nil, or_false] at hf
    rcases hf with rfl | rfl
    · exact ⟨isLine_of (by decide), not_contains_of (by decide),
        ⟨(lit "2"), [(lit "0.98000"), (lit "1.00000")], words_of (by decide) (by decide), by simp, pops_of rfl (by decide)⟩,
        (lit "   2     "), (lit " 2S          0.98000   1.00000"), by decide, by decide⟩
    · exact ⟨isLine_of (by decide), not_contains_of (by decide),
        ⟨(lit "3"), [(lit "0.77000"), (lit "2.00000")], words_of (by decide) (by decide), by simp, pops_of rfl (by decide)⟩,
        (lit "   3     "), (lit " 2PX         0.77000   2.00000"), by decide, by decide⟩
  · exact ⟨⟨isLine_of (by decide), not_contains_of (by decide), ⟨by decide, by decide⟩,
      ⟨(lit "4"), (lit "2"), [(lit "0.61000"), (lit "0.00000")], words_of (by decide) (by decide), pops_of rfl (by decide)⟩,
      (lit "   4 2   "), 'H', ' ', (lit " 1S          0.61000   0.00000"), by decide, by decide, .inr (.inl (by decide))⟩, by simp⟩

/-! ### the file -/

def sampleLog : List (Log.Piece Int) :=
  [.plain (lit " Entering Gaussian System"),
   .coords sampleHeader1 (lit " Number     Number       Type") sampleRuler sampleRows1 sampleRuler,
   .energies .alpha sampleAlpha,
   .plain (lit " ****"),
   .coords sampleHeader2 (lit " Number     Number      Type") sampleRuler sampleRows2 sampleRuler,
   .overlap (lit " *** Overlap *** ") 6 sampleS sampleBlocks (lit " *** Kinetic Energy *** "),
   .energies .alpha sampleAlpha2,
   .energies .beta sampleBeta,
   .population (lit "     Gross orbital populations:") (lit "                          1         2") sampleAtoms
     (lit "         Condensed to atoms (all electrons):"),
   .population (lit "     Gross orbital populations:") (lit "                          1         2") sampleAtoms
     (lit "         Condensed to atoms (all electrons):"),
   .plain (lit " Normal termination")]

theorem sample_piece : ∀ p ∈ sampleLog, p.Ok := by
  intro p hp
  simp only [sampleLog, List.mem_cons, List.not_mem_nil, or_false] at hp
  have pop : (Log.Piece.population (lit "     Gross orbital populations:") (lit "                          1         2") sampleAtoms
     (lit "         Condensed to atoms (all electrons):")).Ok :=
    ⟨isLine_of (by decide), contains_of (by decide), isLine_of (by decide), by decide, sample_atoms, isLine_of (by decide),
      (lit " (all electrons):"), by decide⟩
  rcases hp with rfl | rfl | rfl | rfl | rfl | rfl | rfl | rfl | rfl | rfl | rfl
  · exact plain_of (by decide) (by decide)
  · exact ⟨sample_headers.1, isLine_of (by decide), isLine_of (by decide), sample_rows.1, sample_headers.2.2⟩
  · exact sample_energies.1
  · exact plain_of (by decide) (by decide)
  · exact ⟨sample_headers.2.1, isLine_of (by decide), isLine_of (by decide), sample_rows.2, sample_headers.2.2⟩
  · refine ⟨isLine_of (by decide), contains_of (by decide), ?_, sample_overlap, isLine_of (by decide), .inl (by decide)⟩
    intro p hp hne
    simp only [announcements, List.mem_cons, List.not_mem_nil, or_false] at hp
    rcases hp with rfl | rfl | rfl | rfl | rfl | rfl
    all_goals first | exact absurd rfl hne | exact not_contains_of (by decide)
  · exact sample_energies.2.1
  · exact sample_energies.2.2
  · exact pop
  · exact pop
  · exact plain_of (by decide) (by decide)

/-- Checks that no table of energies is followed by a line that looks like a part of it. -/
def followsOk {α : Type} : List (Log.Piece α) → Bool
  | [] => true
  | .energies spin _ :: ps => (match (ps.flatMap Piece.lines).head? with
      | some l => !foundSubStrInStr l ((lit " ") ++ spin.name ++ (lit "  occ. eigenvalues -- ")) &&
          !foundSubStrInStr l ((lit " ") ++ spin.name ++ (lit " virt. eigenvalues -- "))
      | none => true) && followsOk ps
  | _ :: ps => followsOk ps

theorem follows_of {α : Type} {ps : List (Log.Piece α)} (h : followsOk ps = true) (before : List (Log.Piece α)) (spin : Spin)
    (es : List EnergyLine) (following : List (Log.Piece α)) (he : ps = before ++ .energies spin es :: following) (l : Str)
    (hl : (following.flatMap Piece.lines ++ (if ([] : Str) = [] then [] else [[]])).head? = some l) : NoEnergyLine spin l := by
  induction before generalizing ps with
  | nil =>
    subst he
    simp only [List.nil_append, followsOk, Bool.and_eq_true] at h
    simp only [if_true, List.append_nil] at hl
    rw [hl] at h
    simp only [Bool.and_eq_true, Bool.not_eq_true'] at h
    exact ⟨not_contains_of h.1.1, not_contains_of h.1.2⟩
  | cons p before ih =>
    subst he
    refine ih (ps := before ++ .energies spin es :: following) ?_ rfl
    rw [List.cons_append] at h
    cases p <;> simp only [followsOk, Bool.and_eq_true] at h
    all_goals first | exact h | exact h.2

theorem sample_log : LogFile sampleLog [] :=
  ⟨sample_piece, .inl rfl, fun before spin es following he l hl => follows_of (by decide) before spin es following he l hl⟩

end Verif.Readers
