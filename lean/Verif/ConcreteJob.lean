import Verif.Props.Job
import Mathlib.Data.Rat.Defs
import Mathlib.Algebra.Field.Rat
import Mathlib.Data.Fin.VecNotation
/-
A complete small job, used to show that the hypotheses of the theorems about calc_J can be met: two monomers of one atom with two
basis functions each, and their dimer, the files of which list the atoms in the opposite order. Numbers are rational; they are read up
to the decimal point. No general theorem uses this file.
-/
namespace Verif
open Strings Readers QC Mat Log Pun Job

namespace Sample

/-- Rational arithmetic in the place of `double`. -/
instance : Num Rat where
  stod s := match strtol s with
    | some v => .ok v
    | none => .throw .invalidArgument
  atof s := ((strtol s).getD 0 : Int)
  pow10 e := ((10 ^ e.num.toNat : Int) : Rat)
  stod_empty := rfl
  stod_cases s := by
    cases strtol s with
    | some v => exact .inl ⟨v, rfl⟩
    | none => exact .inr ⟨_, rfl⟩

/-! ### checkers -/

section
variable {α : Type} [Mul α] [Num α] [DecidableEq α]

def coordRowOk (r : Str × α × α × α) : Bool :=
  !r.1.contains '\n' && !foundSubStrInStr r.1 (List.replicate 69 '-') &&
  match splitSt r.1 with
  | _ :: _ :: _ :: x :: y :: z :: _ => decide (Num.stod x = Res.ok r.2.1) && decide (Num.stod y = Res.ok r.2.2.1) && decide (Num.stod z = Res.ok r.2.2.2)
  | _ => false

theorem coordRow_of {r : Str × α × α × α} (h : coordRowOk r = true) : CoordRow r := by
  unfold coordRowOk at h
  simp only [Bool.and_eq_true, Bool.not_eq_true'] at h
  obtain ⟨⟨h1, h2⟩, h3⟩ := h
  refine ⟨isLine_of h1, not_contains_of h2, ?_⟩
  split at h3
  · rename_i a b c x y z more hs
    simp only [Bool.and_eq_true, decide_eq_true_eq] at h3
    exact ⟨a, b, c, x, y, z, more, layout_of hs, h3.1.1, h3.1.2, h3.2⟩
  · cases h3

def energiesOk (es : List EnergyLine) : Bool :=
  es.all (fun e => e.2.all (fun p => p.1.all (· = ' ') && energyOk p.2) && e.2.tail.all (fun p => !p.1.isEmpty || p.2.head? = some '-') &&
    e.2.length ≤ 5) && (es.head?.map (·.1)).getD false

theorem energies_of {es : List EnergyLine} (h : energiesOk es = true) : EnergyTable es := by
  unfold energiesOk at h
  simp only [Bool.and_eq_true] at h
  refine ⟨fun e he => ?_, ?_⟩
  · have := List.all_eq_true.1 h.1 e he
    simp only [Bool.and_eq_true, decide_eq_true_eq] at this
    exact ⟨fields_of this.1.1 this.1.2, this.2⟩
  · cases es with
    | nil => simp at h
    | cons e es => exact ⟨e, es, rfl, by simpa using h.2⟩

def popsOk (ws : List Str) (vals : List α) : Bool :=
  ws.length = vals.length &&
  (List.range ws.length).all (fun q => decide (some (Num.stod (ws.getD q [])) = vals[q]?.map Res.ok) && !isAlphabetical (ws.getD q []))

theorem popsOk_of {ws : List Str} {vals : List α} (h : popsOk ws vals = true) : Populations ws vals := by
  unfold popsOk at h
  simp only [Bool.and_eq_true, decide_eq_true_eq] at h
  exact pops_of h.1 (by simpa using h.2)

def noTrail (l : Str) : Bool := (l.getLast?.map isSpace).getD false = false

/-- The element is in column 10, column 11 is blank. -/
def firstRowOk (elem : Str) (f : Fn α) : Bool :=
  !f.text.contains '\n' && !foundSubStrInStr f.text (lit "         Condensed to atoms") && !elem.isEmpty && elem.all Letter && noTrail f.text &&
  (match splitSt f.text with
    | _ :: _ :: e :: l :: ws => e = elem && l = f.label && popsOk ws f.vals
    | _ => false) &&
  match f.text.drop 9 with
  | a :: b :: _ => Letter a && b = ' ' && 9 ≤ f.text.length
  | _ => false

theorem firstRow_of {elem : Str} {f : Fn α} (h : firstRowOk elem f = true) : FirstRow elem f := by
  unfold firstRowOk at h
  simp only [Bool.and_eq_true, Bool.not_eq_true'] at h
  obtain ⟨⟨⟨⟨⟨⟨h1, h2⟩, h3⟩, h4⟩, h5⟩, h6⟩, h7⟩ := h
  refine ⟨isLine_of h1, not_contains_of h2, ⟨by simpa using h3, by simpa using h4⟩, ?_, ?_⟩
  · split at h6
    · rename_i no atom e l ws hs
      simp only [Bool.and_eq_true, decide_eq_true_eq] at h6
      obtain ⟨⟨rfl, rfl⟩, h6⟩ := h6
      exact ⟨no, atom, ws, words_of hs (by simpa [noTrail] using h5), popsOk_of h6⟩
    · cases h6
  · split at h7
    · rename_i a b right hd
      simp only [Bool.and_eq_true, decide_eq_true_eq] at h7
      refine ⟨f.text.take 9, a, b, right, ?_, by simp; omega, .inr (.inl ⟨h7.1.1, h7.1.2⟩)⟩
      rw [← hd]; exact (List.take_append_drop 9 _).symm
    · cases h7

def furtherRowOk (f : Fn α) : Bool :=
  !f.text.contains '\n' && !foundSubStrInStr f.text (lit "         Condensed to atoms") && noTrail f.text &&
  (match splitSt f.text with
    | _ :: l :: ws => l = f.label && !ws.isEmpty && popsOk ws f.vals
    | _ => false) &&
  match f.text.drop 9 with
  | a :: b :: _ => a = ' ' && b = ' ' && 9 ≤ f.text.length
  | _ => false

theorem furtherRow_of {f : Fn α} (h : furtherRowOk f = true) : FurtherRow f := by
  unfold furtherRowOk at h
  simp only [Bool.and_eq_true, Bool.not_eq_true'] at h
  obtain ⟨⟨⟨⟨h1, h2⟩, h5⟩, h6⟩, h7⟩ := h
  refine ⟨isLine_of h1, not_contains_of h2, ?_, ?_⟩
  · split at h6
    · rename_i no l ws hs
      simp only [Bool.and_eq_true, decide_eq_true_eq] at h6
      obtain ⟨⟨rfl, h8⟩, h6⟩ := h6
      exact ⟨no, ws, words_of hs (by simpa [noTrail] using h5), by simpa using h8, popsOk_of h6⟩
    · cases h6
  · split at h7
    · rename_i a b right hd
      simp only [Bool.and_eq_true, decide_eq_true_eq] at h7
      obtain ⟨⟨rfl, rfl⟩, h7⟩ := h7
      refine ⟨f.text.take 9, right, ?_, by simp; omega⟩
      rw [← hd]; exact (List.take_append_drop 9 _).symm
    · cases h7

def atomOk (a : Atom α) : Bool := firstRowOk a.elem a.first && a.more.all furtherRowOk

theorem atom_of {a : Atom α} (h : atomOk a = true) : AtomRows a := by
  unfold atomOk at h
  simp only [Bool.and_eq_true] at h
  exact ⟨firstRow_of h.1, fun f hf => furtherRow_of (List.all_eq_true.1 h.2 f hf)⟩

/-- Checks a piece of a log file. -/
def pieceOk : Log.Piece α → Bool
  | .plain l => !l.contains '\n' && announcements.all (fun p => !foundSubStrInStr l p)
  | .coords header l2 l3 rows ruler => !header.contains '\n' && foundSubStrInStr header (lit "Center     Atomic      Atomic") &&
      !foundSubStrInStr header (lit "     Gross orbital populations:") && !l2.contains '\n' && !l3.contains '\n' && rows.all coordRowOk &&
      !ruler.contains '\n' && foundSubStrInStr ruler (List.replicate 69 '-')
  | .energies _ es => energiesOk es
  | .overlap header n S blocks next => !header.contains '\n' && foundSubStrInStr header (lit " *** Overlap ***") &&
      announcements.all (fun p => p = (lit " *** Overlap ***") || !foundSubStrInStr header p) && 1 ≤ n && n < 100 && blocks.length = (n + 4) / 5 &&
      (List.range blocks.length).all (fun k => blockOk n S k (blocks.getD k ([], []))) && !next.contains '\n' && (splitSt next).isEmpty
  | .population header l2 atoms last => !header.contains '\n' && foundSubStrInStr header (lit "     Gross orbital populations:") &&
      !l2.contains '\n' && !atoms.isEmpty && atoms.all atomOk && !last.contains '\n' && last = (lit "         Condensed to atoms")

theorem piece_of {p : Log.Piece α} (h : pieceOk p = true) : p.Ok := by
  cases p <;> simp only [pieceOk, Bool.and_eq_true, Bool.not_eq_true', decide_eq_true_eq] at h
  case plain l => exact plain_of h.1 (by simpa using h.2)
  case coords header l2 l3 rows ruler =>
    obtain ⟨⟨⟨⟨⟨⟨⟨h1, h2⟩, h3⟩, h4⟩, h5⟩, h6⟩, h7⟩, h8⟩ := h
    exact ⟨⟨isLine_of h1, .inl (contains_of h2), not_contains_of h3⟩, isLine_of h4, isLine_of h5,
      fun r hr => coordRow_of (List.all_eq_true.1 h6 r hr), isLine_of h7, contains_of h8⟩
  case energies spin es => exact energies_of h
  case overlap header n S blocks next =>
    obtain ⟨⟨⟨⟨⟨⟨⟨⟨h1, h2⟩, h3⟩, h4⟩, h5⟩, h6⟩, h7⟩, h8⟩, h9⟩ := h
    refine ⟨isLine_of h1, contains_of h2, fun p hp hne => ?_, table_of ⟨h4, by omega⟩ h6 h7, isLine_of h8, .inr (.inl (layout_of (by simpa using h9)))⟩
    have := List.all_eq_true.1 h3 p hp
    simp only [Bool.or_eq_true, decide_eq_true_eq, hne, false_or, Bool.not_eq_true'] at this
    exact not_contains_of this
  case population header l2 atoms last =>
    obtain ⟨⟨⟨⟨⟨⟨h1, h2⟩, h3⟩, h4⟩, h5⟩, h6⟩, h7⟩ := h
    exact ⟨isLine_of h1, contains_of h2, isLine_of h3, by simpa using h4, fun a ha => atom_of (List.all_eq_true.1 h5 a ha), isLine_of h6,
      [], by simpa using h7⟩

theorem log_of {ps : List (Log.Piece α)} (h : ps.all pieceOk = true) (h' : followsOk ps = true) : LogFile ps [] :=
  ⟨fun p hp => piece_of (List.all_eq_true.1 h p hp), .inl rfl, fun before spin es following he l hl => follows_of h' before spin es following he l hl⟩

/-- Checks a line of one to five coefficients. -/
def coefRowOk (r : Str × List α) : Bool :=
  !r.1.contains '\n' && r.1.length < 100 && !foundSubStrInStr r.1 (lit " MO OE") && !r.2.isEmpty && r.1.length = 15 * r.2.length &&
  r.1 = (List.range r.2.length).flatMap (fun q => (r.1.drop (15 * q)).take 15) &&
  (((List.range r.2.length).map (fun q => (r.1.drop (15 * q)).take 15)).zip r.2).all (fun f => fieldOk f.1 f.2)

theorem coefRow_of {r : Str × List α} (h : coefRowOk r = true) : CoefLine r.1 r.2 ∧ r.2 ≠ [] := by
  unfold coefRowOk at h
  simp only [Bool.and_eq_true, Bool.not_eq_true', decide_eq_true_eq] at h
  obtain ⟨⟨⟨⟨⟨⟨h1, h2⟩, h3⟩, h4⟩, h5⟩, h6⟩, h7⟩ := h
  refine ⟨coefLine_of (((List.range r.2.length).map (fun q => (r.1.drop (15 * q)).take 15)).zip r.2) h1 (by omega) h3 ?_ h7 ?_, by simpa using h4⟩
  · have : (((List.range r.2.length).map (fun q => (r.1.drop (15 * q)).take 15)).zip r.2).flatMap (·.1) =
        (List.range r.2.length).flatMap (fun q => (r.1.drop (15 * q)).take 15) := by
      rw [List.flatMap, List.flatMap]
      congr 1
      exact List.map_fst_zip (by simp)
    rw [this]; exact h6
  · exact (List.map_snd_zip (by simp)).symm

/-- Checks a table of alpha orbitals. -/
def coefTableOk (n : Nat) (orbs : List (Orbital α)) : Bool :=
  2 ≤ orbs.length && 1 ≤ n && orbs.all (fun o => !o.header.contains '\n' && o.coefs.length = n && o.rows.all coefRowOk) &&
  (orbs.head?.map (fun o => foundSubStrInStr o.header (lit " 1 Alpha MO "))).getD false &&
  orbs.tail.all (fun o => foundSubStrInStr o.header (lit " MO OE") && foundSubStrInStr o.header (lit "Alpha"))

theorem coefTable_of {n : Nat} {orbs : List (Orbital α)} (h : coefTableOk n orbs = true) : CoefTable .alpha n orbs ∧ 2 ≤ orbs.length := by
  unfold coefTableOk at h
  simp only [Bool.and_eq_true, decide_eq_true_eq] at h
  obtain ⟨⟨⟨⟨h1, h2⟩, h3⟩, h4⟩, h5⟩ := h
  refine ⟨⟨by intro e; rw [e] at h1; simp at h1, h2, ?_, by simp, ?_, ?_⟩, h1⟩
  · intro o ho
    rw [Option.mem_def] at ho
    rw [ho] at h4
    exact contains_of h4
  · intro o ho
    have := List.all_eq_true.1 h5 o ho
    simp only [Bool.and_eq_true] at this
    exact ⟨contains_of this.1, contains_of this.2⟩
  · intro o ho
    have := List.all_eq_true.1 h3 o ho
    simp only [Bool.and_eq_true, Bool.not_eq_true', decide_eq_true_eq] at this
    exact ⟨isLine_of this.1.1, this.1.2, fun r hr => coefRow_of (List.all_eq_true.1 this.2 r hr)⟩

end

/-! ### the files -/

def orbs1 : List (Orbital Rat) := [
    ⟨(lit "    1 Alpha MO OE=-3.0"), [((lit " 1.00000000D+00 2.00000000D+00"), [1, 2])]⟩,
    ⟨(lit "    2 Alpha MO OE=1.0"), [((lit " 0.00000000D+00 1.00000000D+00"), [0, 1])]⟩]

def energies1 : List EnergyLine := [(true, [((lit "   "), (lit "-3.0"))]), (false, [((lit "   "), (lit "1.0"))])]

def atoms1 : List (Atom Rat) := [
    ⟨(lit "H"), ⟨(lit "   1 1   H  1S          1.00000"), (lit "1S"), [1]⟩, [⟨(lit "   2        2S          0.50000"), (lit "2S"), [0]⟩]⟩]

def out1 : Output Rat := ⟨[.plain (lit "(5D15.8)")], .table .alpha 2 orbs1, [
    .plain (lit " Entering Gaussian System"),
    .coords sampleHeader1 (lit " Number     Number       Type") sampleRuler [
      ((lit "      1          1           0        1.000000    2.000000    3.000000"), 1, 2, 3)] sampleRuler,
    .energies .alpha energies1,
    .population (lit "     Gross orbital populations:") (lit "                          1") atoms1 (lit "         Condensed to atoms"),
    .plain (lit " Normal termination")], []⟩

theorem out1_ok : PunFile out1.pun out1.ending ∧ LogFile out1.log out1.tail := by
  refine ⟨⟨?_, coefTable_of (by decide +kernel)⟩, log_of (by decide +kernel) (by decide +kernel)⟩
  intro p hp
  simp only [out1, List.mem_singleton] at hp
  subst hp
  exact pun_plain_of (by decide) (by decide) (by decide)

def orbs2 : List (Orbital Rat) := [
    ⟨(lit "    1 Alpha MO OE=-2.0"), [((lit " 1.00000000D+00-1.00000000D+00"), [1, -1])]⟩,
    ⟨(lit "    2 Alpha MO OE=1.0"), [((lit " 2.00000000D+00 1.00000000D+00"), [2, 1])]⟩]

def energies2 : List EnergyLine := [(true, [((lit "   "), (lit "-2.0"))]), (false, [((lit "   "), (lit "1.0"))])]

def atoms2 : List (Atom Rat) := [
    ⟨(lit "B"), ⟨(lit "   1 1   B  1S          1.00000"), (lit "1S"), [1]⟩, [⟨(lit "   2        2S          0.50000"), (lit "2S"), [0]⟩]⟩]

def out2 : Output Rat := ⟨[.plain (lit "(5D15.8)")], .table .alpha 2 orbs2, [
    .plain (lit " Entering Gaussian System"),
    .coords sampleHeader1 (lit " Number     Number       Type") sampleRuler [
      ((lit "      1          1           0        4.000000    5.000000    6.000000"), 4, 5, 6)] sampleRuler,
    .energies .alpha energies2,
    .population (lit "     Gross orbital populations:") (lit "                          1") atoms2 (lit "         Condensed to atoms"),
    .plain (lit " Normal termination")], []⟩

theorem out2_ok : PunFile out2.pun out2.ending ∧ LogFile out2.log out2.tail := by
  refine ⟨⟨?_, coefTable_of (by decide +kernel)⟩, log_of (by decide +kernel) (by decide +kernel)⟩
  intro p hp
  simp only [out2, List.mem_singleton] at hp
  subst hp
  exact pun_plain_of (by decide) (by decide) (by decide)

def orbsP : List (Orbital Rat) := [
    ⟨(lit "    1 Alpha MO OE=-4.0"), [((lit " 1.00000000D+00 0.00000000D+00 1.00000000D+00 0.00000000D+00"), [1, 0, 1, 0])]⟩,
    ⟨(lit "    2 Alpha MO OE=-3.0"), [((lit "-1.00000000D+00 0.00000000D+00 1.00000000D+00 0.00000000D+00"), [-1, 0, 1, 0])]⟩,
    ⟨(lit "    3 Alpha MO OE=1.0"), [((lit " 0.00000000D+00 1.00000000D+00 0.00000000D+00 1.00000000D+00"), [0, 1, 0, 1])]⟩,
    ⟨(lit "    4 Alpha MO OE=2.0"), [((lit " 0.00000000D+00 2.00000000D+00 0.00000000D+00 1.00000000D+00"), [0, 2, 0, 1])]⟩]

def energiesP : List EnergyLine := [(true, [((lit "   "), (lit "-4.0")), ((lit "   "), (lit "-3.0"))]), (false, [((lit "   "), (lit "1.0")), ((lit "   "), (lit "2.0"))])]

def atomsP : List (Atom Rat) := [
    ⟨(lit "B"), ⟨(lit "   1 1   B  1S          1.00000"), (lit "1S"), [1]⟩, [⟨(lit "   2        2S          0.50000"), (lit "2S"), [0]⟩]⟩,
    ⟨(lit "H"), ⟨(lit "   3 2   H  1S          1.00000"), (lit "1S"), [1]⟩, [⟨(lit "   4        2S          0.50000"), (lit "2S"), [0]⟩]⟩]

def overlapP (i j : Nat) : Rat := ([[1, 0, 2, 0], [0, 1, 3, 4], [2, 3, 1, 0], [0, 4, 0, 1]].getD (i - 1) []).getD (j - 1) 0

def outP : Output Rat := ⟨[.plain (lit "(5D15.8)")], .table .alpha 4 orbsP, [
    .plain (lit " Entering Gaussian System"),
    .coords sampleHeader1 (lit " Number     Number       Type") sampleRuler [
      ((lit "      1          1           0        4.000000    5.000000    6.000000"), 4, 5, 6),
      ((lit "      2          1           0        1.000000    2.000000    3.000000"), 1, 2, 3)] sampleRuler,
    .overlap (lit " *** Overlap *** ") 4 overlapP [((lit "                   1             2             3             4"), [(lit "     1  1.0D+00"),
      (lit "     2  0.0D+00  1.0D+00"),
      (lit "     3  2.0D+00  3.0D+00  1.0D+00"),
      (lit "     4  0.0D+00  4.0D+00  0.0D+00  1.0D+00")])] [],
    .energies .alpha energiesP,
    .population (lit "     Gross orbital populations:") (lit "                          1") atomsP (lit "         Condensed to atoms"),
    .plain (lit " Normal termination")], []⟩

theorem outP_ok : PunFile outP.pun outP.ending ∧ LogFile outP.log outP.tail := by
  refine ⟨⟨?_, coefTable_of (by decide +kernel)⟩, log_of (by decide +kernel) (by decide +kernel)⟩
  intro p hp
  simp only [outP, List.mem_singleton] at hp
  subst hp
  exact pun_plain_of (by decide) (by decide) (by decide)

def orbsFull : List (Orbital Rat) := [
    ⟨(lit "    1 Alpha MO OE=-4.0"), [((lit " 1.00000000D+00 0.00000000D+00 1.00000000D+00 0.00000000D+00"), [1, 0, 1, 0])]⟩,
    ⟨(lit "    2 Alpha MO OE=-3.0"), [((lit " 1.00000000D+00 0.00000000D+00-1.00000000D+00 0.00000000D+00"), [1, 0, -1, 0])]⟩,
    ⟨(lit "    3 Alpha MO OE=1.0"), [((lit " 0.00000000D+00 1.00000000D+00 0.00000000D+00 1.00000000D+00"), [0, 1, 0, 1])]⟩,
    ⟨(lit "    4 Alpha MO OE=2.0"), [((lit " 0.00000000D+00 1.00000000D+00 0.00000000D+00 2.00000000D+00"), [0, 1, 0, 2])]⟩]

def energiesFull : List EnergyLine := [(true, [((lit "   "), (lit "-4.0")), ((lit "   "), (lit "-3.0"))]), (false, [((lit "   "), (lit "1.0")), ((lit "   "), (lit "2.0"))])]

def atomsFull : List (Atom Rat) := [
    ⟨(lit "H"), ⟨(lit "   1 1   H  1S          1.00000"), (lit "1S"), [1]⟩, [⟨(lit "   2        2S          0.50000"), (lit "2S"), [0]⟩]⟩,
    ⟨(lit "B"), ⟨(lit "   3 2   B  1S          1.00000"), (lit "1S"), [1]⟩, [⟨(lit "   4        2S          0.50000"), (lit "2S"), [0]⟩]⟩]

def overlapFull (i j : Nat) : Rat := ([[1, 0, 2, 3], [0, 1, 0, 4], [2, 0, 1, 0], [3, 4, 0, 1]].getD (i - 1) []).getD (j - 1) 0

def outFull : Output Rat := ⟨[.plain (lit "(5D15.8)")], .table .alpha 4 orbsFull, [
    .plain (lit " Entering Gaussian System"),
    .coords sampleHeader1 (lit " Number     Number       Type") sampleRuler [
      ((lit "      1          1           0        1.000000    2.000000    3.000000"), 1, 2, 3),
      ((lit "      2          1           0        4.000000    5.000000    6.000000"), 4, 5, 6)] sampleRuler,
    .overlap (lit " *** Overlap *** ") 4 overlapFull [((lit "                   1             2             3             4"), [(lit "     1  1.0D+00"),
      (lit "     2  0.0D+00  1.0D+00"),
      (lit "     3  2.0D+00  0.0D+00  1.0D+00"),
      (lit "     4  3.0D+00  4.0D+00  0.0D+00  1.0D+00")])] [],
    .energies .alpha energiesFull,
    .population (lit "     Gross orbital populations:") (lit "                          1") atomsFull (lit "         Condensed to atoms"),
    .plain (lit " Normal termination")], []⟩

theorem outFull_ok : PunFile outFull.pun outFull.ending ∧ LogFile outFull.log outFull.tail := by
  refine ⟨⟨?_, coefTable_of (by decide +kernel)⟩, log_of (by decide +kernel) (by decide +kernel)⟩
  intro p hp
  simp only [outFull, List.mem_singleton] at hp
  subst hp
  exact pun_plain_of (by decide) (by decide) (by decide)

def orbsA : List (Orbital Rat) := [
    ⟨(lit "    1 Alpha MO OE=-3.0"), [((lit " 1.00000000D+00 2.00000000D+00"), [1, 2])]⟩,
    ⟨(lit "    2 Alpha MO OE=1.0"), [((lit " 0.00000000D+00 1.00000000D+00"), [0, 1])]⟩]

def energiesA : List EnergyLine := [(true, [((lit "   "), (lit "-3.0"))]), (false, [((lit "   "), (lit "1.0"))])]

def outA : Output Rat := ⟨[.plain (lit "(5D15.8)")], .table .alpha 2 orbsA, [
    .plain (lit " Entering Gaussian System"),
    .coords sampleHeader1 (lit " Number     Number       Type") sampleRuler [
      ((lit "      1          1           0        1.000000    2.000000    3.000000"), 1, 2, 3)] sampleRuler,
    .energies .alpha energiesA,
    .plain (lit " Normal termination")], []⟩

theorem outA_ok : PunFile outA.pun outA.ending ∧ LogFile outA.log outA.tail := by
  refine ⟨⟨?_, coefTable_of (by decide +kernel)⟩, log_of (by decide +kernel) (by decide +kernel)⟩
  intro p hp
  simp only [outA, List.mem_singleton] at hp
  subst hp
  exact pun_plain_of (by decide) (by decide) (by decide)

/-- The directory. The files `F.pun` and `F.log` are of a calculation of monomer 1 in the basis of the dimer, `A.log`
has no table of populations. -/
def files (name : Str) : Option Str :=
  if name = (lit "1.pun") then some (punText out1.pun out1.ending)
  else if name = (lit "1.log") then some (logText out1.log out1.tail)
  else if name = (lit "2.pun") then some (punText out2.pun out2.ending)
  else if name = (lit "2.log") then some (logText out2.log out2.tail)
  else if name = (lit "P.pun") then some (punText outP.pun outP.ending)
  else if name = (lit "P.log") then some (logText outP.log outP.tail)
  else if name = (lit "F.pun") then some (punText outFull.pun outFull.ending)
  else if name = (lit "F.log") then some (logText outFull.log outFull.tail)
  else if name = (lit "A.pun") then some (punText outA.pun outA.ending)
  else if name = (lit "A.log") then some (logText outA.log outA.tail)
  else none

theorem stored1 : Stored files (lit "1.pun") (lit "1.log") out1 :=
  ⟨out1_ok.1, out1_ok.2, by unfold Fits; decide, by unfold Fits; decide, ⟨[], (lit "1"), [], rfl, .inl rfl, by decide, by decide, by simp⟩,
    ⟨[], (lit "1"), [], rfl, .inl rfl, by decide, by decide, by simp⟩, rfl, rfl⟩

theorem stored2 : Stored files (lit "2.pun") (lit "2.log") out2 :=
  ⟨out2_ok.1, out2_ok.2, by unfold Fits; decide, by unfold Fits; decide, ⟨[], (lit "2"), [], rfl, .inl rfl, by decide, by decide, by simp⟩,
    ⟨[], (lit "2"), [], rfl, .inl rfl, by decide, by decide, by simp⟩, rfl, rfl⟩

theorem storedP : Stored files (lit "P.pun") (lit "P.log") outP :=
  ⟨outP_ok.1, outP_ok.2, by unfold Fits; decide, by unfold Fits; decide, ⟨[], (lit "P"), [], rfl, .inl rfl, by decide, by decide, by simp⟩,
    ⟨[], (lit "P"), [], rfl, .inl rfl, by decide, by decide, by simp⟩, rfl, rfl⟩

theorem storedFull : Stored files (lit "F.pun") (lit "F.log") outFull :=
  ⟨outFull_ok.1, outFull_ok.2, by unfold Fits; decide, by unfold Fits; decide, ⟨[], (lit "F"), [], rfl, .inl rfl, by decide, by decide, by simp⟩,
    ⟨[], (lit "F"), [], rfl, .inl rfl, by decide, by decide, by simp⟩, rfl, rfl⟩

theorem storedA : Stored files (lit "A.pun") (lit "A.log") outA :=
  ⟨outA_ok.1, outA_ok.2, by unfold Fits; decide, by unfold Fits; decide, ⟨[], (lit "A"), [], rfl, .inl rfl, by decide, by decide, by simp⟩,
    ⟨[], (lit "A"), [], rfl, .inl rfl, by decide, by decide, by simp⟩, rfl, rfl⟩

theorem orbitals1 : Orbitals out1 .alpha orbs1 2 energies1 := ⟨rfl, by decide +kernel, rfl⟩

theorem orbitals2 : Orbitals out2 .alpha orbs2 2 energies2 := ⟨rfl, by decide +kernel, rfl⟩

theorem orbitalsP : Orbitals outP .alpha orbsP 4 energiesP := ⟨rfl, by decide +kernel, rfl⟩

theorem orbitalsFull : Orbitals outFull .alpha orbsFull 4 energiesFull := ⟨rfl, by decide +kernel, rfl⟩

theorem orbitalsA : Orbitals outA .alpha orbsA 2 energiesA := ⟨rfl, by decide +kernel, rfl⟩

theorem counts1 : BasisCounts out1 [2] := by
  refine ⟨atoms1, by simp [out1, populations], by decide +kernel, ?_, by decide +kernel⟩
  intro as has
  simp only [out1, populations, List.mem_singleton] at has
  rw [has]

theorem counts2 : BasisCounts out2 [2] := by
  refine ⟨atoms2, by simp [out2, populations], by decide +kernel, ?_, by decide +kernel⟩
  intro as has
  simp only [out2, populations, List.mem_singleton] at has
  rw [has]

theorem countsP : BasisCounts outP [2, 2] := by
  refine ⟨atomsP, by simp [outP, populations], by decide +kernel, ?_, by decide +kernel⟩
  intro as has
  simp only [outP, populations, List.mem_singleton] at has
  rw [has]

theorem countsFull : BasisCounts outFull [2, 2] := by
  refine ⟨atomsFull, by simp [outFull, populations], by decide +kernel, ?_, by decide +kernel⟩
  intro as has
  simp only [outFull, populations, List.mem_singleton] at has
  rw [has]

/-- The coefficients of the dimer, were its atoms listed in the order of the monomers. -/
def alignedC (i j : Int) : Rat := ([[1, 0, 1, 0], [1, 0, -1, 0], [0, 1, 0, 1], [0, 1, 0, 2]].getD (i - 1).toNat []).getD (j - 1).toNat 0

/-- The overlaps of the dimer, were its atoms listed in the order of the monomers. -/
def alignedS (i j : Int) : Rat := ([[1, 0, 2, 3], [0, 1, 0, 4], [2, 0, 1, 0], [3, 4, 0, 1]].getD (i - 1).toNat []).getD (j - 1).toNat 0


theorem alignedP : ColumnsAs [2, 2] [2, 1] alignedC (coefOf orbsP) ∧ BothAs [2, 2] [2, 1] alignedS (overlapOf overlapP) := by
  have cols : ∀ (q : Nat) c, (colsOf [2, 2] [2, 1])[q]? = some c → q = 0 ∧ c = 3 ∨ q = 1 ∧ c = 4 ∨ q = 2 ∧ c = 1 ∨ q = 3 ∧ c = 2 := by
    intro q c h
    have e : colsOf [2, 2] [2, 1] = [3, 4, 1, 2] := by decide
    rw [e] at h
    match q, h with
    | 0, h => simp at h; omega
    | 1, h => simp at h; omega
    | 2, h => simp at h; omega
    | 3, h => simp at h; omega
    | n + 4, h => simp at h
  constructor
  · intro i q c h
    have key : ∀ k : Nat, k < 4 → ∀ p ∈ [((0 : Nat), (3 : Int)), (1, 4), (2, 1), (3, 2)], coefOf orbsP (k + 1) (p.1 + 1) = alignedC (k + 1) p.2 := by
      decide +kernel
    have hp : (q, c) ∈ [((0 : Nat), (3 : Int)), (1, 4), (2, 1), (3, 2)] := by
      rcases cols q c h with ⟨rfl, rfl⟩ | ⟨rfl, rfl⟩ | ⟨rfl, rfl⟩ | ⟨rfl, rfl⟩ <;> decide
    by_cases hi : (i - 1).toNat < 4
    · have := key _ hi _ hp
      unfold coefOf alignedC at this ⊢
      rw [show (((i - 1).toNat : Int) + 1 - 1).toNat = (i - 1).toNat by omega] at this
      exact this
    · have out : ∀ (l : List (List Rat)) (k : Nat), l.length ≤ k → l.getD k [] = [] := by
        intro l k h
        rw [List.getD_eq_getElem?_getD, List.getElem?_eq_none h]; rfl
      unfold coefOf alignedC
      rw [out _ _ (by simp [orbsP]; omega), out _ _ (by simp; omega)]
      simp
  · intro p q r c h h'
    have key : ∀ x ∈ [((0 : Nat), (3 : Int)), (1, 4), (2, 1), (3, 2)], ∀ y ∈ [((0 : Nat), (3 : Int)), (1, 4), (2, 1), (3, 2)],
        overlapOf overlapP (x.1 + 1) (y.1 + 1) = alignedS x.2 y.2 := by decide +kernel
    have mem : ∀ (q : Nat) c, (colsOf [2, 2] [2, 1])[q]? = some c → (q, c) ∈ [((0 : Nat), (3 : Int)), (1, 4), (2, 1), (3, 2)] := by
      intro q c h
      rcases cols q c h with ⟨rfl, rfl⟩ | ⟨rfl, rfl⟩ | ⟨rfl, rfl⟩ | ⟨rfl, rfl⟩ <;> decide
    exact key _ (mem p r h) _ (mem q c h')

theorem reorderedP {rows ref : List (Rat × Rat × Rat)} (h1 : ref = [(1, 2, 3), (4, 5, 6)]) (h2 : rows = [(4, 5, 6), (1, 2, 3)]) :
    Reordered (id : Rat → Rat) [2, 1] ref rows := by
  subst h1 h2
  refine ⟨by decide, rfl, ?_, by unfold Alike; decide +kernel⟩
  intro k a x y h1 h2 h3
  match k, h1, h2 with
  | 0, h1, h2 => simp at h1 h2; subst h1 h2; simp at h3; subst h3; exact ⟨rfl, rfl, rfl⟩
  | 1, h1, h2 => simp at h1 h2; subst h1 h2; simp at h3; subst h3; exact ⟨rfl, rfl, rfl⟩
  | n + 2, h1, h2 => simp at h1

/-- Evaluates the coupling for a dimer with four orbitals. -/
theorem sample_value {gA gB E : Fin 4 → Rat} {v : Rat} {M : Int} (fA fB fE : Int → Rat) (hM : M = 4)
    (hA : ∀ m : Fin 4, fA (m + 1) = gA m) (hB : ∀ m : Fin 4, fB (m + 1) = gB m) (hE : ∀ m : Fin 4, fE (m + 1) = E m)
    (h : (gB 0 * E 0 * gA 0 + gB 1 * E 1 * gA 1 + gB 2 * E 2 * gA 2 + gB 3 * E 3 * gA 3 -
        (gA 0 ^ 2 * E 0 + gA 1 ^ 2 * E 1 + gA 2 ^ 2 * E 2 + gA 3 ^ 2 * E 3 +
          (gB 0 ^ 2 * E 0 + gB 1 ^ 2 * E 1 + gB 2 ^ 2 * E 2 + gB 3 ^ 2 * E 3)) *
          (gB 0 * gA 0 + gB 1 * gA 1 + gB 2 * gA 2 + gB 3 * gA 3) / 2) /
        (1 - (gB 0 * gA 0 + gB 1 * gA 1 + gB 2 * gA 2 + gB 3 * gA 3) ^ 2) = v) : QC.coupling M fA fB fE = v := by
  have a : Finset.Icc (1 : Int) 4 = {1, 2, 3, 4} := by decide
  have sum : ∀ f : Int → Rat, ∑ m ∈ Finset.Icc (1 : Int) 4, f m = f 1 + f 2 + f 3 + f 4 := by
    intro f
    rw [a]
    simp [add_assoc]
  have a0 := hA 0; have a1 := hA 1; have a2 := hA 2; have a3 := hA 3
  have b0 := hB 0; have b1 := hB 1; have b2 := hB 2; have b3 := hB 3
  have e0 := hE 0; have e1 := hE 1; have e2 := hE 2; have e3 := hE 3
  simp at a0 a1 a2 a3 b0 b1 b2 b3 e0 e1 e2 e3
  subst hM
  unfold QC.coupling couplingJ siteEnergy overlapAB
  simp only [sum, a0, a1, a2, a3, b0, b1, b2, b3, e0, e1, e2, e3]
  exact h

end Sample

section
open Sample
variable {D : Type} [Args.Dbl D]

/-- The parameters of a job. -/
def sampleParams (mP m1 m2 t2 : Str) (cp : Bool) : Params.Params :=
  { Params.init with
    log1 := m1 ++ (lit ".log"), log2 := m2 ++ (lit ".log"), logP := mP ++ (lit ".log"), pun1 := m1 ++ (lit ".pun"), pun2 := m2 ++ (lit ".pun"),
    punP := mP ++ (lit ".pun"), spinP := (lit "Alpha"), spin1 := (lit "Alpha"), spin2 := (lit "Alpha"), orbType1 := (lit "HOMO"),
    orbType2 := t2, counterPoise := cp, citation := some false }

theorem sample_parse : ∃ q : Args.Parser D, Args.parse (fsOf files) Args.calcJ
      [(lit "-p_P"), (lit "P.pun"), (lit "-p_1"), (lit "1.pun"), (lit "-p_2"), (lit "2.pun")] = .ok q ∧
    Args.prepareParameters q = .ok (sampleParams (lit "P") (lit "1") (lit "2") (lit "HOMO") false) := by
  have : (Args.parse (fsOf files) (Args.calcJ (D := D)) [(lit "-p_P"), (lit "P.pun"), (lit "-p_1"), (lit "1.pun"), (lit "-p_2"), (lit "2.pun")]
      >>= Args.prepareParameters) = .ok (sampleParams (lit "P") (lit "1") (lit "2") (lit "HOMO") false) := by kernel_rfl
  rw [Res.bind_eq_ok] at this
  exact this

theorem sample_parse_plain : ∃ q : Args.Parser D, Args.parse (fsOf files) Args.calcJ
      [(lit "-l_P"), (lit "F.log"), (lit "-l_1"), (lit "A.log"), (lit "-l_2"), (lit "2.log")] = .ok q ∧
    Args.prepareParameters q = .ok (sampleParams (lit "F") (lit "A") (lit "2") (lit "HOMO") false) := by
  have : (Args.parse (fsOf files) (Args.calcJ (D := D)) [(lit "-l_P"), (lit "F.log"), (lit "-l_1"), (lit "A.log"), (lit "-l_2"), (lit "2.log")]
      >>= Args.prepareParameters) = .ok (sampleParams (lit "F") (lit "A") (lit "2") (lit "HOMO") false) := by kernel_rfl
  rw [Res.bind_eq_ok] at this
  exact this

theorem sample_parse_cp : ∃ q : Args.Parser D, Args.parse (fsOf files) Args.calcJ
      [(lit "-cp"), (lit "-p_P"), (lit "P.pun"), (lit "-p_1"), (lit "F.pun"), (lit "-p_2"), (lit "P.pun"), (lit "-orb_ty_2"), (lit "LUMO")] = .ok q ∧
    Args.prepareParameters q = .ok (sampleParams (lit "P") (lit "F") (lit "P") (lit "LUMO") true) := by
  have : (Args.parse (fsOf files) (Args.calcJ (D := D)) [(lit "-cp"), (lit "-p_P"), (lit "P.pun"), (lit "-p_1"), (lit "F.pun"), (lit "-p_2"), (lit "P.pun"), (lit "-orb_ty_2"), (lit "LUMO")]
      >>= Args.prepareParameters) = .ok (sampleParams (lit "P") (lit "F") (lit "P") (lit "LUMO") true) := by kernel_rfl
  rw [Res.bind_eq_ok] at this
  exact this

/-- The dimer's atoms are in another order than the monomers'. -/
theorem sample_job : Ends (fun fuel => calcJMain D (id : Rat → Rat) files fuel
      [(lit "-p_P"), (lit "P.pun"), (lit "-p_1"), (lit "1.pun"), (lit "-p_2"), (lit "2.pun")]) (.ok (-282251 / 85696)) := by
  obtain ⟨q, hq, hpar⟩ := sample_parse (D := D)
  have := C79_aligned (id : Rat → Rat) files _ hq hpar rfl storedP stored1 stored2 (spinP := .alpha) (spin1 := .alpha) (spin2 := .alpha) rfl rfl rfl
    orbitalsP orbitals1 orbitals2 (by decide) (by decide) (by decide) (by decide) (S := overlapP) rfl rfl rfl rfl (by decide) (row1 := 1) (row2 := 1)
    (.inl (by decide)) (.inl (by decide)) (by decide) (by decide) (basis := [2, 2]) (order := [2, 1]) (by decide) (by decide) (by decide)
    (List.cons_ne_nil _ _) (List.cons_ne_nil _ _) (reorderedP rfl rfl) countsP ⟨_, counts1, by simp⟩ ⟨_, counts2, by simp⟩ alignedP.1 alignedP.2
  have e : jobCoupling false (coefOf orbs1 1) (coefOf orbs2 1) 2 orbsP.length (4 : Nat) alignedC alignedS energiesP = (-282251 / 85696) := by
    refine sample_value (gA := ![3, -1, 13, 24]) (gB := ![0, -2, -5, -6]) (E := ![-4, -3, 1, 2]) _ _ _ rfl ?_ ?_ ?_ ?_
    all_goals decide +kernel
  rw [← e]
  exact this

/-- Without reordering: the same number. -/
example : Ends (fun fuel => calcJMain D (id : Rat → Rat) files fuel
      [(lit "-l_P"), (lit "F.log"), (lit "-l_1"), (lit "A.log"), (lit "-l_2"), (lit "2.log")]) (.ok (-282251 / 85696)) := by
  obtain ⟨q, hq, hpar⟩ := sample_parse_plain (D := D)
  have := C79_plain (id : Rat → Rat) files _ hq hpar storedFull storedA stored2 (spinP := .alpha) (spin1 := .alpha) (spin2 := .alpha) rfl rfl rfl
    orbitalsFull orbitalsA orbitals2 (by decide) (by decide) (by decide) (by decide) (S := overlapFull) rfl rfl rfl rfl (by decide) (row1 := 1) (row2 := 1)
    (.inl (by decide)) (.inl (by decide)) (by decide) (by decide) (.inr (.inl rfl))
  have e : jobCoupling false (coefOf orbsA 1) (coefOf orbs2 1) 2 orbsFull.length (4 : Nat) (coefOf orbsFull) (overlapOf overlapFull) energiesFull = (-282251 / 85696) := by
    refine sample_value (gA := ![3, -1, 13, 24]) (gB := ![0, -2, -5, -6]) (E := ![-4, -3, 1, 2]) _ _ _ rfl ?_ ?_ ?_ ?_
    all_goals decide +kernel
  rw [← e]
  exact this

/-- With counterpoise: the files of monomer 2 and of the dimer list the atoms in another order than those of monomer 1. -/
example : Ends (fun fuel => calcJMain D (id : Rat → Rat) files fuel
      [(lit "-cp"), (lit "-p_P"), (lit "P.pun"), (lit "-p_1"), (lit "F.pun"), (lit "-p_2"), (lit "P.pun"), (lit "-orb_ty_2"), (lit "LUMO")])
    (.ok (1368 / 565)) := by
  obtain ⟨q, hq, hpar⟩ := sample_parse_cp (D := D)
  have := C79_aligned_cp (id : Rat → Rat) files _ hq hpar rfl storedP storedFull storedP (spinP := .alpha) (spin1 := .alpha) (spin2 := .alpha) rfl rfl rfl
    orbitalsP orbitalsFull orbitalsP (by decide) (by decide) (by decide) (by decide) (S := overlapP) rfl rfl rfl rfl (by decide) (row1 := 2) (row2 := 3)
    (.inl (by decide)) (.inr (by decide)) (by decide) (by decide) (basis := [2, 2]) (order2 := [2, 1]) (order := [2, 1]) (by decide) (by decide) (by decide)
    (List.cons_ne_nil _ _) (reorderedP rfl rfl) (reorderedP rfl rfl) countsP ⟨_, countsFull, by simp⟩ countsP alignedP.1 alignedP.1 alignedP.2
  have e : jobCoupling true (coefOf orbsFull 2) (alignedC 3) 4 orbsP.length (4 : Nat) alignedC alignedS energiesP = (1368 / 565) := by
    refine sample_value (gA := ![0, -2, 3, 6]) (gB := ![3, 3, 10, 15]) (E := ![-4, -3, 1, 2]) _ _ _ rfl ?_ ?_ ?_ ?_
    all_goals decide +kernel
  rw [← e]
  exact this

end
end Verif
