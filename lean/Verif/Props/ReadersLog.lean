import Verif.Props.ReadersTerm
import Verif.CountLemmas
import Verif.ConcreteLog
import Verif.Props.Stoi
/-
Properties C71-C74 and C78: what a log file says is what the reader returns.
-/
namespace Verif.Readers
open Strings Log Mat

variable {α : Type} [Mul α] [Num α] [Zero α]

theorem readLog_run {fs : Str → Option Str} {name text : Str} (hfit : Fits name) (hname : PlainName (lit ".log") name)
    (h : fs name = some text) : (fun n => (readLog fs n name : Res (LogData α))) = runFrom logSections text LogData.empty := by
  funext n
  unfold readLog
  rw [((C70_accepted_partial (α := α) name hfit).1).2 hname]
  simp only [Res.ok_bind]
  exact read_eq _ _ _ _ h _ _

/-- Constructing a `LogReader` for the well-formed log file `name` and calling `read` succeeds. -/
theorem log_reads (fs : Str → Option Str) (name : Str) (hfit : Fits name) (hname : PlainName (lit ".log") name)
    (ps : List (Log.Piece α)) (tail : Str) (hf : LogFile ps tail) (h : fs name = some (logText ps tail)) :
    ∃ d, Effect ps LogData.empty d ∧ Ends (fun n => (readLog fs n name : Res (LogData α))) (.ok d) := by
  obtain ⟨d', h1, he⟩ := run_pieces ps tail hf LogData.empty
  refine ⟨d', h1, ?_⟩
  rw [readLog_run hfit hname h]; exact he

section
variable (fs : Str → Option Str) (name : Str) (hfit : Fits name) (hname : PlainName (lit ".log") name)
  (ps : List (Log.Piece α)) (tail : Str) (hf : LogFile ps tail) (h : fs name = some (logText ps tail))
include hfit hname hf h

/-- C71: after reading a well-formed log file, `getOE` returns the numbers of the last table of energies of that spin, all of them
and in order, and `getHOMOLevel` the number of those that are occupied; both throw if there is no such table. -/
theorem C71_energies :
    ∃ d, Ends (fun n => (readLog fs n name : Res (LogData α))) (.ok d) ∧ ∀ spin : Spin,
      (∀ es, lastEnergies spin ps = some es →
        d.getOE spin.name = .ok ((energies es).map Num.atof) ∧ d.getHOMOLevel spin.name = .ok (occupied es)) ∧
      (lastEnergies spin ps = none →
        d.getOE spin.name = .throw .outOfRange ∧ d.getHOMOLevel spin.name = .throw .outOfRange) := by
  obtain ⟨d, he, hr⟩ := log_reads fs name hfit hname ps tail hf h
  refine ⟨d, hr, fun spin => ⟨fun es hes => ?_, fun hes => ?_⟩⟩
  · have h1 := he.oe spin
    have h2 := he.homo spin
    rw [hes] at h1 h2
    simp only [Option.elim] at h1 h2
    simp only [LogData.getOE, LogData.getHOMOLevel, h1, h2]
    exact ⟨trivial, trivial⟩
  · have h1 := he.oe spin
    have h2 := he.homo spin
    rw [hes] at h1 h2
    simp only [Option.elim, LogData.empty, Map.get_nil] at h1 h2
    simp only [LogData.getOE, LogData.getHOMOLevel, h1, h2]
    exact ⟨trivial, trivial⟩

/-- C73 (partial): after reading a well-formed log file, `getOverlapMatrix` is the symmetric matrix printed in its last overlap
table. Missing: a table of five columns or less is read only if the line after it is blank or starts with an integer, see
`C73_refuted`. -/
theorem C73_overlap_partial :
    ∃ d, Ends (fun n => (readLog fs n name : Res (LogData α))) (.ok d) ∧ ∀ n S, lastOverlap ps = some (n, S) →
      ∃ m, d.getOverlapMatrix = .ok m ∧ m.rows = n ∧ m.cols = n ∧ ∀ i j : Nat, 1 ≤ i → i ≤ n → 1 ≤ j → j ≤ n →
        m.getElem2 i j = .ok (if j ≤ i then S i j else S j i) := by
  obtain ⟨d, he, hr⟩ := log_reads fs name hfit hname ps tail hf h
  refine ⟨d, hr, fun n S hs => ?_⟩
  rcases he.S with ⟨h1, -⟩ | ⟨n', S', m, h1, h2, h3⟩
  · rw [h1] at hs; cases hs
  · rw [h1] at hs
    simp only [Option.some.injEq, Prod.mk.injEq] at hs
    obtain ⟨rfl, rfl⟩ := hs
    refine ⟨m, by simp only [LogData.getOverlapMatrix, h2], h3.rows, h3.cols, fun i j hi hi' hj hj' => ?_⟩
    rw [h3.get2 (by omega) (by omega) (by omega) (by omega) (by omega)]
    unfold symm
    by_cases hij : j ≤ i
    · rw [if_pos hij]
      congr 2 <;> omega
    · rw [if_neg hij]
      congr 2 <;> omega

/-- C74: after reading a well-formed log file, `getCoords` holds the columns x, y and z of its last coordinate table, in order. -/
theorem C74_coords :
    ∃ d, Ends (fun n => (readLog fs n name : Res (LogData α))) (.ok d) ∧
      (∀ rows, lastCoords ps = some rows → d.getCoords = [rows.map (·.1), rows.map (·.2.1), rows.map (·.2.2)]) ∧
      (lastCoords ps = none → d.getCoords = []) := by
  obtain ⟨d, he, hr⟩ := log_reads fs name hfit hname ps tail hf h
  refine ⟨d, hr, fun rows hrows => ?_, fun hrows => ?_⟩
  · have := he.xyz
    rw [hrows] at this
    exact this
  · have := he.xyz
    rw [hrows] at this
    exact this

/-- C78 (partial): if the tables of populations agree about the atoms and the labels of their functions, and no atom has two
functions with the same label, then `getBasisFuncCount` lists for each atom, in order, how many functions it has. Missing: see the
two theorems below. -/
theorem C78_counts_partial (atoms : List (Atom α)) (hpop : atoms ∈ populations ps)
    (hsame : ∀ as ∈ populations ps, as.map (fun a => (a.elem, a.fns.map (·.label))) = atoms.map (fun a => (a.elem, a.fns.map (·.label))))
    (hlabels : ∀ a ∈ atoms, (a.fns.map (·.label)).Nodup) :
    ∃ d, Ends (fun n => (readLog fs n name : Res (LogData α))) (.ok d) ∧ d.getBasisFuncCount = atoms.map (fun a => (a.fns.length : Int)) := by
  obtain ⟨d, he, hr⟩ := log_reads fs name hfit hname ps tail hf h
  refine ⟨d, hr, ?_⟩
  rw [counts_shape, he.orb]
  rw [show (LogData.empty (α := α)).orb = [] from rfl,
    shape_tables (structureOf atoms) (populations ps) (by intro hn; rw [hn] at hpop; cases hpop) hsame, tableShape_counts]
  unfold structureOf
  rw [List.map_map]
  apply List.map_congr_left
  intro a ha
  simp only [Function.comp]
  rw [strSet_length_nodup (hlabels a ha), List.length_map]

/-- C78 (no table): `getBasisFuncCount` is empty. -/
theorem C78_no_table (hpop : populations ps = []) :
    ∃ d, Ends (fun n => (readLog fs n name : Res (LogData α))) (.ok d) ∧ d.getBasisFuncCount = [] := by
  obtain ⟨d, he, hr⟩ := log_reads fs name hfit hname ps tail hf h
  refine ⟨d, hr, ?_⟩
  rw [counts_shape, he.orb, hpop]
  rfl

/-- C78 is false when an atom has two functions with the same label: they are counted once. -/
theorem C78_refuted_labels (atoms : List (Atom α)) (hpop : populations ps = [atoms])
    (hdup : ∃ a ∈ atoms, ¬ (a.fns.map (·.label)).Nodup) :
    ∃ d, Ends (fun n => (readLog fs n name : Res (LogData α))) (.ok d) ∧ d.getBasisFuncCount ≠ atoms.map (fun a => (a.fns.length : Int)) := by
  obtain ⟨d, he, hr⟩ := log_reads fs name hfit hname ps tail hf h
  refine ⟨d, hr, ?_⟩
  rw [counts_shape, he.orb, hpop]
  rw [show (LogData.empty (α := α)).orb = [] from rfl,
    shape_tables (structureOf atoms) [atoms] (by simp) (by simp), tableShape_counts]
  unfold structureOf
  rw [List.map_map]
  intro hc
  obtain ⟨a, ha, hn⟩ := hdup
  have := List.map_inj_left.1 hc a ha
  simp only [Function.comp, Int.natCast_inj] at this
  apply hn
  exact nodup_of_strSet_length (by rw [this, List.length_map])

/-- C78 is false when two tables disagree about an element: the atom is listed twice. -/
theorem C78_refuted_tables (a b : Atom α) (hpop : populations ps = [[a], [b]]) (hne : a.elem ≠ b.elem) :
    ∃ d, Ends (fun n => (readLog fs n name : Res (LogData α))) (.ok d) ∧ d.getBasisFuncCount.length = 2 := by
  obtain ⟨d, he, hr⟩ := log_reads fs name hfit hname ps tail hf h
  refine ⟨d, hr, ?_⟩
  rw [counts_shape, he.orb, hpop, List.length_map]
  rw [show (LogData.empty (α := α)).orb = [] from rfl, List.foldl_cons, List.foldl_cons, List.foldl_nil]
  simp only [addAtoms]
  rw [shape_addFns]
  have h1 := shape_addAtoms [a] 1 [] [] (by intro e he; cases he) (.inl rfl)
  simp only [addAtoms, structureOf, tableShape, List.map_cons, List.map_nil, List.nil_append] at h1
  rw [h1]
  exact shapeFns_two _ _ _ hne _ b.first.label (b.more.map (·.label))

end

/-! ### C72 -/

/-- The words at the start of a line of energies. -/
def energyWords (spin : Spin) (occ : Bool) : List Str :=
  [spin.name, (if occ then (lit "occ.") else (lit "virt.")), (lit "eigenvalues"), (lit "--")]

private theorem start_words (spin : Spin) (occ : Bool) :
    ∃ start, energyStart spin occ = start ++ [' '] ∧ splitSt start = energyWords spin occ := by
  cases spin <;> cases occ
  · exact ⟨(lit " Alpha virt. eigenvalues --"), rfl, by decide⟩
  · exact ⟨(lit " Alpha  occ. eigenvalues --"), rfl, by decide⟩
  · exact ⟨(lit "  Beta virt. eigenvalues --"), rfl, by decide⟩
  · exact ⟨(lit "  Beta  occ. eigenvalues --"), rfl, by decide⟩

private theorem text_start {spin : Spin} {e : EnergyLine} {start : Str} (h : energyStart spin e.1 = start ++ [' ']) :
    EnergyLine.text spin e = start ++ ' ' :: fieldsText e.2 := by
  rw [text_eq, h]; simp

omit [Mul α] [Num α] [Zero α] in
/-- C72 (partial): an energy line is split into its four words and its energies, whichever blanks before minus signs are missing,
if it has at most five energies (as Gaussian's lines do) or if it does not happen to have nine blank-separated words. -/
theorem C72_split_partial (spin : Spin) (e : EnergyLine) (h : EnergyFields e.2) (ws : List Str)
    (hw : Layout (EnergyLine.text spin e) ws) (h5 : e.2.length ≤ 5 ∨ ws.length ≠ 9) :
    splitStEnergies (EnergyLine.text spin e) = .ok (energyWords spin e.1 ++ e.2.map (·.2)) := by
  obtain ⟨start, h1, h2⟩ := start_words spin e.1
  have ht := text_start h1
  rw [ht] at hw ⊢
  refine splitStEnergies_line' h2 h ?_
  rw [hw.split]; exact h5

omit [Mul α] [Num α] [Zero α] in
/-- C72 (corollary): dropping blanks before minus signs changes nothing in a line of at most five energies. -/
theorem C72_same_partial (spin : Spin) (occ : Bool) (f g : List (Str × Str)) (hf : EnergyFields f) (hg : EnergyFields g)
    (hl : f.length ≤ 5) (same : f.map (·.2) = g.map (·.2)) :
    splitStEnergies (EnergyLine.text spin (occ, f)) = splitStEnergies (EnergyLine.text spin (occ, g)) := by
  have hl' : g.length ≤ 5 := by
    have := congrArg List.length same
    simp only [List.length_map] at this
    omega
  rw [C72_split_partial spin (occ, f) hf _ (layout_splitSt _) (.inl hl), C72_split_partial spin (occ, g) hg _ (layout_splitSt _) (.inl hl')]
  simp only [same]

omit [Mul α] [Num α] [Zero α] in
/-- C72 is false for longer lines: with more than five energies and nine words some energies stay joined. -/
theorem C72_refuted (spin : Spin) (e : EnergyLine) (ws : List Str) (hw : Layout (EnergyLine.text spin e) ws)
    (h6 : 5 < e.2.length) (h9 : ws.length = 9) :
    splitStEnergies (EnergyLine.text spin e) = .ok ws ∧ ws ≠ energyWords spin e.1 ++ e.2.map (·.2) := by
  constructor
  · unfold splitStEnergies
    simp only [hw.split, h9, if_true]
  · intro hc
    rw [hc] at h9
    simp [energyWords] at h9
    omega

/-! ### C73 -/

/-- C73 is false for small matrices: a table of at most five columns followed, as in Gaussian's output, by a line such as
` *** Kinetic Energy ***` makes reading fail with `invalid_argument`. -/
theorem C73_refuted (before : List Str) (hb : ∀ l ∈ before, Log.Plain l) {header : Str} (hh : IsLine header)
    (hc : Contains header (lit " *** Overlap ***"))
    (ho : ∀ p ∈ announcements, p ≠ (lit " *** Overlap ***") → ¬ Contains header p)
    {n : Nat} {S : Nat → Nat → α} {blocks : List (Str × List Str)} (ht : OverlapTable n S blocks) (h5 : n ≤ 5)
    {next : Str} (hn : IsLine next) {w : Str} {ws : List Str} (hw : Layout next (w :: ws)) (hint : ¬ ∃ i, Args.IntText w i)
    (rest : Str) (fs : Str → Option Str) (name : Str) (hfit : Fits name) (hname : PlainName (lit ".log") name)
    (h : fs name = some (unlines before ++ unlines (header :: (blocks.flatMap (fun b => b.1 :: b.2) ++ [next])) ++ rest)) :
    Ends (fun k => (readLog fs k name : Res (LogData α))) (.throw .invalidArgument) := by
  rw [readLog_run hfit hname h, List.append_assoc]
  refine run_boring_lines _ (fun l hl => ⟨(hb l hl).1, start_plain (hb l hl)⟩) ?_
  rw [unlines_cons_append]
  refine run_section_throw _ hh (start_overlap hc ho) (by decide) (f := overlapReader) rfl ?_
  have ht' : unlines (blocks.flatMap (fun b => b.1 :: b.2) ++ [next]) ++ rest = blocksText blocks (next ++ '\n' :: rest) := by
    unfold blocksText
    rw [unlines_append, List.append_assoc, unlines_cons_append, unlines_nil, List.nil_append]
  rw [ht']
  exact overlapReader_throw ht h5 (fun prev => getline_line hn _ _) hw.split ((Args.C67_stoi w).2.2 hint) _ _

/-! ### examples -/

private theorem plain_log : PlainName (lit ".log") (lit "a.log") := ⟨[], (lit "a"), [], rfl, .inl rfl, by decide, by decide, by simp⟩
private theorem fits_log : Fits (lit "a.log") := by unfold Fits; decide

/-- The sample file: its last Alpha energies have five occupied orbitals out of six (two of them printed without blanks), its last
coordinates are those of the second table, its overlap matrix is symmetric, and its atoms have three functions and one. -/
example : ∃ d, Ends (fun n => (readLog (holding (lit "a.log") (logText sampleLog [])) n (lit "a.log") : Res (LogData Int))) (.ok d) ∧
    d.getOE (lit "Alpha") = .ok [-11, -10, -1, -1, 0, 2] ∧ d.getHOMOLevel (lit "Alpha") = .ok 5 := by
  obtain ⟨d, h1, h2⟩ := C71_energies (holding (lit "a.log") (logText sampleLog [])) _ fits_log plain_log sampleLog [] sample_log rfl
  refine ⟨d, h1, ?_⟩
  obtain ⟨a, b⟩ := (h2 .alpha).1 sampleAlpha2 (by decide)
  exact ⟨a.trans (by decide), b.trans (by decide)⟩

example : ∃ d, Ends (fun n => (readLog (holding (lit "a.log") (logText sampleLog [])) n (lit "a.log") : Res (LogData Int))) (.ok d) ∧
    ∃ m, d.getOverlapMatrix = .ok m ∧ m.getElem2 2 6 = .ok 62 ∧ m.getElem2 6 2 = .ok 62 ∧ m.getElem2 6 6 = .ok 66 := by
  obtain ⟨d, h1, h2⟩ := C73_overlap_partial (holding (lit "a.log") (logText sampleLog [])) _ fits_log plain_log sampleLog [] sample_log rfl
  obtain ⟨m, h3, -, -, h4⟩ := h2 6 sampleS rfl
  exact ⟨d, h1, m, h3, h4 2 6 (by decide) (by decide) (by decide) (by decide), h4 6 2 (by decide) (by decide) (by decide) (by decide),
    h4 6 6 (by decide) (by decide) (by decide) (by decide)⟩

example : ∃ d, Ends (fun n => (readLog (holding (lit "a.log") (logText sampleLog [])) n (lit "a.log") : Res (LogData Int))) (.ok d) ∧
    d.getCoords = [[10, -7], [20, 8], [30, -9]] := by
  obtain ⟨d, h1, h2, -⟩ := C74_coords (holding (lit "a.log") (logText sampleLog [])) _ fits_log plain_log sampleLog [] sample_log rfl
  exact ⟨d, h1, h2 _ rfl⟩

example : ∃ d, Ends (fun n => (readLog (holding (lit "a.log") (logText sampleLog [])) n (lit "a.log") : Res (LogData Int))) (.ok d) ∧
    d.getBasisFuncCount = [3, 1] := by
  have hp : populations sampleLog = [sampleAtoms, sampleAtoms] := rfl
  obtain ⟨d, h1, h2⟩ := C78_counts_partial (holding (lit "a.log") (logText sampleLog [])) _ fits_log plain_log sampleLog [] sample_log rfl
    sampleAtoms (by rw [hp]; simp) (by rw [hp]; intro as has; simp only [List.mem_cons, List.not_mem_nil, or_false, or_self] at has; rw [has])
    (by intro a ha
        simp only [sampleAtoms, List.mem_cons, List.not_mem_nil, or_false] at ha
        rcases ha with rfl | rfl <;> decide)
  exact ⟨d, h1, h2⟩

/-- Six energies, the last two of them joined: the line has nine words, and they stay joined. -/
example : splitStEnergies (lit " Alpha  occ. eigenvalues --  -1.1 -1.2 -1.3 -1.4 -1.5-1.6") =
    .ok [(lit "Alpha"), (lit "occ."), (lit "eigenvalues"), (lit "--"), (lit "-1.1"), (lit "-1.2"), (lit "-1.3"), (lit "-1.4"), (lit "-1.5-1.6")] :=
  (C72_refuted .alpha (true, [((lit " "), (lit "-1.1")), ((lit " "), (lit "-1.2")), ((lit " "), (lit "-1.3")), ((lit " "), (lit "-1.4")),
    ((lit " "), (lit "-1.5")), ([], (lit "-1.6"))]) _ (layout_of rfl) (by decide) (by decide)).1

/-- Five energies, four of them joined, are separated; so are seven in three words. -/
example : splitStEnergies (lit " Alpha  occ. eigenvalues -- -101.1-99.2-1.3-1.4 0.5") =
    .ok [(lit "Alpha"), (lit "occ."), (lit "eigenvalues"), (lit "--"), (lit "-101.1"), (lit "-99.2"), (lit "-1.3"), (lit "-1.4"), (lit "0.5")] :=
  C72_split_partial .alpha (true, [([], (lit "-101.1")), ([], (lit "-99.2")), ([], (lit "-1.3")), ([], (lit "-1.4")),
    ((lit " "), (lit "0.5"))]) (fields_of (by decide) (by decide)) _ (layout_splitSt _) (.inl (by decide))

/-- The overlap matrix of a hydrogen molecule in a minimal basis cannot be read. -/
example : Ends (fun k => (readLog (holding (lit "a.log")
    (unlines [(lit " *** Overlap *** "), (lit "                1             2"), (lit "      1  1.0D+00"), (lit "      2  3.0D+00  1.0D+00"),
      (lit " *** Kinetic Energy *** ")])) k (lit "a.log") : Res (LogData Int))) (.throw .invalidArgument) := by
  refine C73_refuted (α := Int) [] (by simp) (header := (lit " *** Overlap *** ")) (isLine_of (by decide)) (contains_of (by decide)) ?_
    (n := 2) (S := fun i j => if i = j then 1 else 3)
    (blocks := [((lit "                1             2"), [(lit "      1  1.0D+00"), (lit "      2  3.0D+00  1.0D+00")])])
    (table_of (by omega) (by decide) (by decide)) (by decide) (next := (lit " *** Kinetic Energy *** ")) (isLine_of (by decide))
    (layout_of rfl) ?_ [] _ _ fits_log plain_log rfl
  · intro p hp hne
    simp only [announcements, List.mem_cons, List.not_mem_nil, or_false] at hp
    rcases hp with rfl | rfl | rfl | rfl | rfl | rfl
    all_goals first | exact absurd rfl hne | exact not_contains_of (by decide)
  · rintro ⟨i, hi⟩
    by_cases hr : -2 ^ 31 ≤ i ∧ i < 2 ^ 31
    · have := (Args.C67_stoi _).1 i hi hr
      revert this; exact (by decide : stoi (lit "***") = .throw .invalidArgument) ▸ (by simp)
    · have := (Args.C67_stoi _).2.1 i hi hr
      revert this; exact (by decide : stoi (lit "***") = .throw .invalidArgument) ▸ (by simp)

/-! ### more examples for C69 and C78 -/

/-- A table of energies and a coordinate table that is cut off between lines: reading ends. -/
def cutLog : List Str :=
  [(lit " Alpha  occ. eigenvalues --  -10.2 -0.4"), sampleHeader1, (lit " Number"), sampleRuler, (lit " 1 6 0 1.0 2.0 3.0")]

example : ∃ out, Ends (fun n => (readLog (holding (lit "a.log") (unlines cutLog)) n (lit "a.log") : Res (LogData Int))) out := by
  refine C69_log_partial _ _ fun text ht => ⟨cutLog, ?_, ?_, ?_, ?_⟩
  · simpa [holding] using ht.symm
  · intro l hl
    simp only [cutLog, List.mem_cons, List.not_mem_nil, or_false] at hl
    rcases hl with rfl | rfl | rfl | rfl | rfl <;> exact isLine_of (by decide)
  · intro l hl spin hc
    simp only [cutLog, List.mem_cons, List.not_mem_nil, or_false] at hl
    cases spin <;> (rcases hl with rfl | rfl | rfl | rfl | rfl) <;>
      first | exact contains_of (by decide) | exact absurd hc (not_contains_of (by decide))
  · intro before l after he hc
    have hl : l ∈ cutLog := by rw [he]; simp
    simp only [cutLog, List.mem_cons, List.not_mem_nil, or_false] at hl
    rcases hl with rfl | rfl | rfl | rfl | rfl <;> exact absurd hc (not_contains_of (by decide))

example : ∃ d, Ends (fun n => (readLog (holding (lit "a.log") (logText sampleLog [])) n (lit "a.log") : Res (LogData Int))) (.ok d) :=
  C69_log_well_formed_partial _ _ fits_log plain_log sampleLog [] sample_log rfl

/-- The first atom of the sample, with nothing after it. -/
example : Hangs (fun n => (readLog (holding (lit "a.log") (unlines [(lit " x")] ++ unlines
    [(lit "     Gross orbital populations:"), (lit "    1"), (lit "   1 1   C  1S          1.99000   1.00000"),
     (lit "   2        2S          0.98000   1.00000"), (lit "   3        2PX         0.77000   2.00000")])) n (lit "a.log") : Res (LogData Int))) :=
  C69_refuted_populations [(lit " x")] (by simp only [List.mem_singleton, forall_eq]; exact plain_of (by decide) (by decide))
    ⟨(lit "C"), ⟨(lit "   1 1   C  1S          1.99000   1.00000"), (lit "1S"), [1, 1]⟩,
     [⟨(lit "   2        2S          0.98000   1.00000"), (lit "2S"), [0, 1]⟩,
      ⟨(lit "   3        2PX         0.77000   2.00000"), (lit "2PX"), [0, 2]⟩]⟩
    (sample_atoms _ (by simp [sampleAtoms])) (by simp) (isLine_of (by decide)) (contains_of (by decide)) (isLine_of (by decide)) _ _
    fits_log plain_log rfl

/-- The first coordinate table of the sample, without the end of its last line. -/
example : Hangs (fun n => (readLog (holding (lit "a.log") (unlines [(lit " x")] ++ (unlines
    [sampleHeader1, (lit " Number"), sampleRuler, (lit "      1          6           0        1.000000    2.000000    3.000000")] ++
    (lit "      2          1           0       -4.000000    5.000000   -6.000000")))) n (lit "a.log") : Res (LogData Int))) :=
  C69_refuted_coordinates [(lit " x")] (by simp only [List.mem_singleton, forall_eq]; exact plain_of (by decide) (by decide))
    sample_headers.1 (isLine_of (by decide)) (isLine_of (by decide)) [sampleRows1.head (by decide)] (sampleRows1.getLast (by decide))
    (by intro r hr; simp only [List.mem_singleton] at hr; subst hr; exact sample_rows.1 _ (List.head_mem _))
    (sample_rows.1 _ (List.getLast_mem _)) _ _ fits_log plain_log rfl

/-- An atom with two functions called `1S`. -/
def twiceAtom : Atom Int := ⟨(lit "H"), ⟨(lit "   1 1   H  1S          1.99000   1.00000"), (lit "1S"), [1, 1]⟩,
  [⟨(lit "   2        1S          0.98000   1.00000"), (lit "1S"), [0, 1]⟩]⟩

/-- A helium atom. -/
def heAtom : Atom Int := ⟨(lit "He"), ⟨(lit "   1 1   He 1S          1.99000   1.00000"), (lit "1S"), [1, 1]⟩, []⟩

theorem two_atoms : AtomRows twiceAtom ∧ AtomRows heAtom := by
  refine ⟨⟨⟨isLine_of (by decide), not_contains_of (by decide), ⟨by decide, by decide⟩,
      ⟨(lit "1"), (lit "1"), [(lit "1.99000"), (lit "1.00000")], words_of (by decide) (by decide), pops_of rfl (by decide)⟩,
      (lit "   1 1   "), 'H', ' ', (lit " 1S          1.99000   1.00000"), by decide, by decide, .inr (.inl (by decide))⟩, ?_⟩,
    ⟨⟨isLine_of (by decide), not_contains_of (by decide), ⟨by decide, by decide⟩,
      ⟨(lit "1"), (lit "1"), [(lit "1.99000"), (lit "1.00000")], words_of (by decide) (by decide), pops_of rfl (by decide)⟩,
      (lit "   1 1   "), 'H', 'e', (lit " 1S          1.99000   1.00000"), by decide, by decide, .inl (by decide)⟩, by simp [heAtom]⟩⟩
  intro f hf
  simp only [twiceAtom, List.mem_cons, List.not_mem_nil, or_false] at hf
  subst hf
  exact ⟨isLine_of (by decide), not_contains_of (by decide),
    ⟨(lit "2"), [(lit "0.98000"), (lit "1.00000")], words_of (by decide) (by decide), by simp, pops_of rfl (by decide)⟩,
    (lit "   2     "), (lit " 1S          0.98000   1.00000"), by decide, by decide⟩

/-- A table of populations with one atom. -/
def onePop (a : Atom Int) : Log.Piece Int :=
  .population (lit "     Gross orbital populations:") (lit "              1         2") [a] (lit "         Condensed to atoms (all electrons):")

theorem onePop_ok {a : Atom Int} (h : AtomRows a) : (onePop a).Ok :=
  ⟨isLine_of (by decide), contains_of (by decide), isLine_of (by decide), by simp, by simpa using h, isLine_of (by decide),
    (lit " (all electrons):"), by decide⟩

theorem pops_file {ps : List (Log.Piece Int)} (h : ∀ p ∈ ps, ∃ a, p = onePop a ∧ AtomRows a) : LogFile ps [] := by
  refine ⟨fun p hp => ?_, .inl rfl, ?_⟩
  · obtain ⟨a, rfl, ha⟩ := h p hp
    exact onePop_ok ha
  · intro before spin es following he
    obtain ⟨a, ha, -⟩ := h (.energies spin es) (by rw [he]; simp)
    cases ha

example : ∃ d, Ends (fun n => (readLog (holding (lit "a.log") (logText [onePop twiceAtom] [])) n (lit "a.log") : Res (LogData Int))) (.ok d) ∧
    d.getBasisFuncCount ≠ [2] :=
  C78_refuted_labels _ _ fits_log plain_log [onePop twiceAtom] [] (pops_file (by
    intro p hp; simp only [List.mem_singleton] at hp; subst hp; exact ⟨_, rfl, two_atoms.1⟩)) rfl [twiceAtom] rfl
    ⟨twiceAtom, by simp, by decide⟩

example : ∃ d, Ends (fun n => (readLog (holding (lit "a.log") (logText [onePop twiceAtom, onePop heAtom] [])) n (lit "a.log") :
    Res (LogData Int))) (.ok d) ∧ d.getBasisFuncCount.length = 2 :=
  C78_refuted_tables _ _ fits_log plain_log [onePop twiceAtom, onePop heAtom] [] (pops_file (by
    intro p hp
    simp only [List.mem_cons, List.not_mem_nil, or_false] at hp
    rcases hp with rfl | rfl
    · exact ⟨_, rfl, two_atoms.1⟩
    · exact ⟨_, rfl, two_atoms.2⟩)) rfl twiceAtom heAtom rfl (by decide)

end Verif.Readers
