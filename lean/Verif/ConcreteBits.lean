import Verif.Props.Bits
/-
Concrete jobs that meet the hypotheses of C99-C101: the same dimer with its atoms in another order and with the signs of some orbitals
changed, and monomers with the sign of their orbital changed. No general theorem uses this file.
-/
namespace Verif
open Strings Readers QC Mat Log Pun Job

namespace Sample

/-- The orbitals of the dimer, numbers 2 and 4 with the opposite sign. -/
def orbsG : List (Orbital Rat) := [
    ⟨(lit "    1 Alpha MO OE=-4.0"), [((lit " 1.00000000D+00 0.00000000D+00 1.00000000D+00 0.00000000D+00"), [1, 0, 1, 0])]⟩,
    ⟨(lit "    2 Alpha MO OE=-3.0"), [((lit " 1.00000000D+00 0.00000000D+00-1.00000000D+00 0.00000000D+00"), [1, 0, -1, 0])]⟩,
    ⟨(lit "    3 Alpha MO OE=1.0"), [((lit " 0.00000000D+00 1.00000000D+00 0.00000000D+00 1.00000000D+00"), [0, 1, 0, 1])]⟩,
    ⟨(lit "    4 Alpha MO OE=2.0"), [((lit " 0.00000000D+00-2.00000000D+00 0.00000000D+00-1.00000000D+00"), [0, -2, 0, -1])]⟩]

def outG : Output Rat := ⟨[.plain (lit "(5D15.8)")], .table .alpha 4 orbsG, outP.log, outP.tail⟩

theorem outG_ok : PunFile outG.pun outG.ending ∧ LogFile outG.log outG.tail := by
  refine ⟨⟨?_, coefTable_of (by decide +kernel)⟩, outP_ok.2⟩
  intro p hp
  simp only [outG, List.mem_singleton] at hp
  subst hp
  exact pun_plain_of (by decide) (by decide) (by decide)

/-- The orbitals of monomer 1, the first with the opposite sign. -/
def orbsN : List (Orbital Rat) := [
    ⟨(lit "    1 Alpha MO OE=-3.0"), [((lit "-1.00000000D+00-2.00000000D+00"), [-1, -2])]⟩,
    ⟨(lit "    2 Alpha MO OE=1.0"), [((lit " 0.00000000D+00 1.00000000D+00"), [0, 1])]⟩]

def outN : Output Rat := ⟨[.plain (lit "(5D15.8)")], .table .alpha 2 orbsN, out1.log, out1.tail⟩

theorem outN_ok : PunFile outN.pun outN.ending ∧ LogFile outN.log outN.tail := by
  refine ⟨⟨?_, coefTable_of (by decide +kernel)⟩, out1_ok.2⟩
  intro p hp
  simp only [outN, List.mem_singleton] at hp
  subst hp
  exact pun_plain_of (by decide) (by decide) (by decide)

/-- The orbitals of monomer 2, the first with the opposite sign. -/
def orbsM : List (Orbital Rat) := [
    ⟨(lit "    1 Alpha MO OE=-2.0"), [((lit "-1.00000000D+00 1.00000000D+00"), [-1, 1])]⟩,
    ⟨(lit "    2 Alpha MO OE=1.0"), [((lit " 2.00000000D+00 1.00000000D+00"), [2, 1])]⟩]

def outM : Output Rat := ⟨[.plain (lit "(5D15.8)")], .table .alpha 2 orbsM, out2.log, out2.tail⟩

theorem outM_ok : PunFile outM.pun outM.ending ∧ LogFile outM.log outM.tail := by
  refine ⟨⟨?_, coefTable_of (by decide +kernel)⟩, out2_ok.2⟩
  intro p hp
  simp only [outM, List.mem_singleton] at hp
  subst hp
  exact pun_plain_of (by decide) (by decide) (by decide)

/-- The directory of the sample job with further files. -/
def filesS (name : Str) : Option Str :=
  if name = (lit "G.pun") then some (punText outG.pun outG.ending)
  else if name = (lit "G.log") then some (logText outG.log outG.tail)
  else if name = (lit "N.pun") then some (punText outN.pun outN.ending)
  else if name = (lit "N.log") then some (logText outN.log outN.tail)
  else if name = (lit "M.pun") then some (punText outM.pun outM.ending)
  else if name = (lit "M.log") then some (logText outM.log outM.tail)
  else files name

theorem monomer1 : MonomerFiles filesS (lit "1.pun") (lit "1.log") .alpha ([2] : List Int).sum orbs1 energies1 [(1, 2, 3)] :=
  ⟨out1, ⟨stored1.1, stored1.2, stored1.3, stored1.4, stored1.5, stored1.6, rfl, rfl⟩, orbitals1, rfl, _, counts1, by simp⟩

theorem monomer2 : MonomerFiles filesS (lit "2.pun") (lit "2.log") .alpha ([2] : List Int).sum orbs2 energies2 [(4, 5, 6)] :=
  ⟨out2, ⟨stored2.1, stored2.2, stored2.3, stored2.4, stored2.5, stored2.6, rfl, rfl⟩, orbitals2, rfl, _, counts2, by simp⟩

theorem monomerN : MonomerFiles filesS (lit "N.pun") (lit "N.log") .alpha ([2] : List Int).sum orbsN energies1 [(1, 2, 3)] :=
  ⟨outN, ⟨outN_ok.1, outN_ok.2, by unfold Fits; decide, by unfold Fits; decide, ⟨[], (lit "N"), [], rfl, .inl rfl, by decide, by decide, by simp⟩,
    ⟨[], (lit "N"), [], rfl, .inl rfl, by decide, by decide, by simp⟩, rfl, rfl⟩, ⟨rfl, by decide +kernel, rfl⟩, rfl, _, counts1, by simp⟩

theorem monomerM : MonomerFiles filesS (lit "M.pun") (lit "M.log") .alpha ([2] : List Int).sum orbsM energies2 [(4, 5, 6)] :=
  ⟨outM, ⟨outM_ok.1, outM_ok.2, by unfold Fits; decide, by unfold Fits; decide, ⟨[], (lit "M"), [], rfl, .inl rfl, by decide, by decide, by simp⟩,
    ⟨[], (lit "M"), [], rfl, .inl rfl, by decide, by decide, by simp⟩, rfl, rfl⟩, ⟨rfl, by decide +kernel, rfl⟩, rfl, _, counts2, by simp⟩

theorem dimerP : DimerFiles (id : Rat → Rat) filesS (lit "P.pun") (lit "P.log") .alpha ([(1, 2, 3)] ++ [(4, 5, 6)]) ([2] ++ [2]) 4 alignedC alignedS energiesP :=
  ⟨outP, orbsP, [(4, 5, 6), (1, 2, 3)], [2, 1], overlapP,
    ⟨storedP.1, storedP.2, storedP.3, storedP.4, storedP.5, storedP.6, rfl, rfl⟩, orbitalsP, rfl, rfl, reorderedP rfl rfl, countsP, alignedP.1, rfl, alignedP.2⟩

/-- Outside of the table every coefficient is 0, so that comparing the rows suffices. -/
theorem columnsAs_of {basis order : List Int} {C : Int → Int → Rat} {orbs : List (Orbital Rat)} (hC : ∀ i, (orbs.length : Int) < i → ∀ j, C i j = 0)
    (h0 : ∀ i, i < 1 → ∀ j, C i j = C 1 j)
    (h : ∀ i < orbs.length, ∀ q < (colsOf basis order).length, coefOf orbs ((i : Int) + 1) ((q : Int) + 1) = C ((i : Int) + 1) ((colsOf basis order).getD q 0)) :
    ColumnsAs basis order C (coefOf orbs) := by
  intro i q c hc
  obtain ⟨hq, e⟩ := List.getElem?_eq_some_iff.1 hc
  have hd : (colsOf basis order).getD q 0 = c := by rw [List.getD_eq_getElem?_getD, hc]; rfl
  by_cases hi : (orbs.length : Int) < i
  · rw [hC i hi]
    unfold coefOf
    rw [List.getD_eq_getElem?_getD (l := orbs.map _), List.getElem?_eq_none (by simp; omega)]
    simp
  · by_cases h1 : i < 1
    · rw [h0 i h1]
      by_cases hl : 0 < orbs.length
      · have := h 0 hl q hq
        rw [hd] at this
        have e2 : coefOf orbs i (q + 1) = coefOf orbs 1 (q + 1) := by
          unfold coefOf
          rw [show (i - 1).toNat = 0 by omega]; rfl
        rw [e2]
        simpa using this
      · rw [hC 1 (by omega)]
        unfold coefOf
        rw [List.getD_eq_getElem?_getD (l := orbs.map _), List.getElem?_eq_none (by simp; omega)]
        simp
    · have := h (i - 1).toNat (by omega) q hq
      rw [hd, show (((i - 1).toNat : Nat) : Int) + 1 = i by omega] at this
      exact this

theorem alignedC_out : ∀ i, ((4 : Nat) : Int) < i → ∀ j, alignedC i j = 0 := by
  intro i hi j
  unfold alignedC
  rw [List.getD_eq_getElem?_getD (l := [_, _, _, _]), List.getElem?_eq_none (by simp; omega)]
  simp

theorem alignedC_low : ∀ i, i < 1 → ∀ j, alignedC i j = alignedC 1 j := by
  intro i hi j
  unfold alignedC
  rw [show (i - 1).toNat = 0 by omega]; rfl

theorem dimerF : DimerFiles (id : Rat → Rat) filesS (lit "F.pun") (lit "F.log") .alpha ([(1, 2, 3)] ++ [(4, 5, 6)]) ([2] ++ [2]) 4 alignedC alignedS energiesP := by
  refine ⟨outFull, orbsFull, [(1, 2, 3), (4, 5, 6)], [1, 2], overlapFull,
    ⟨storedFull.1, storedFull.2, storedFull.3, storedFull.4, storedFull.5, storedFull.6, rfl, rfl⟩, orbitalsFull, rfl, rfl, ?_, countsFull,
    columnsAs_of alignedC_out alignedC_low (by decide +kernel), rfl, ?_⟩
  · exact Job.Reordered.self (reorderedP (ref := [(1, 2, 3), (4, 5, 6)]) rfl rfl)
  · intro p q r c hp hq
    have e : colsOf ([2] ++ [2]) [1, 2] = [1, 2, 3, 4] := by decide
    rw [e] at hp hq
    have hp' := (List.getElem?_eq_some_iff.1 hp)
    have hq' := (List.getElem?_eq_some_iff.1 hq)
    obtain ⟨hpl, hp'⟩ := hp'
    obtain ⟨hql, hq'⟩ := hq'
    have key : ∀ p : Nat, p < 4 → ∀ q : Nat, q < 4 → overlapOf overlapFull ((p : Int) + 1) ((q : Int) + 1) =
      alignedS (([1, 2, 3, 4] : List Int).getD p 0) (([1, 2, 3, 4] : List Int).getD q 0) := by decide +kernel
    have := key p hpl q hql
    rw [List.getD_eq_getElem?_getD, List.getD_eq_getElem?_getD, hp, hq] at this
    exact this

/-- Which orbitals are reversed in the files `G`. -/
def reversedG (i : Int) : Bool := i = 2 ∨ i = 4

theorem dimerG : DimerFiles (id : Rat → Rat) filesS (lit "G.pun") (lit "G.log") .alpha ([(1, 2, 3)] ++ [(4, 5, 6)]) ([2] ++ [2]) 4
    (fun i j => if reversedG i then - alignedC i j else alignedC i j) alignedS energiesP := by
  refine ⟨outG, orbsG, [(4, 5, 6), (1, 2, 3)], [2, 1], overlapP,
    ⟨outG_ok.1, outG_ok.2, by unfold Fits; decide, by unfold Fits; decide, ⟨[], (lit "G"), [], rfl, .inl rfl, by decide, by decide, by simp⟩,
    ⟨[], (lit "G"), [], rfl, .inl rfl, by decide, by decide, by simp⟩, rfl, rfl⟩, ⟨rfl, by decide +kernel, rfl⟩, rfl, rfl, reorderedP rfl rfl, countsP,
    columnsAs_of ?_ ?_ (by decide +kernel), rfl, alignedP.2⟩
  · intro i hi j
    simp only [alignedC_out i hi j, neg_zero, ite_self]
  · intro i hi j
    have : reversedG i = false := by unfold reversedG; simp; omega
    simp only [this, alignedC_low i hi j]
    rfl

theorem listed_of {pun log : Str} {ref : List (Rat × Rat × Rat)} {basis : List Int} {M : Nat} {C s : Int → Int → Rat} {es : List EnergyLine}
    (d : DimerFiles (id : Rat → Rat) filesS pun log .alpha ref basis M C s es) : ListedFiles (id : Rat → Rat) filesS pun log .alpha ref basis M C es := by
  obtain ⟨o, orbs, rows, order, _, h1, h2, h3, h4, h5, h6, h7, _, _⟩ := d
  exact ⟨o, orbs, rows, order, h1, h2, h3, h4, h5, h6, h7⟩

theorem monomerF : MonomerFiles filesS (lit "F.pun") (lit "F.log") .alpha ([2, 2] : List Int).sum orbsFull energiesP [(1, 2, 3), (4, 5, 6)] :=
  ⟨outFull, ⟨storedFull.1, storedFull.2, storedFull.3, storedFull.4, storedFull.5, storedFull.6, rfl, rfl⟩, orbitalsFull, rfl, _, countsFull, by simp⟩

theorem monomerP : MonomerFiles filesS (lit "P.pun") (lit "P.log") .alpha ([2, 2] : List Int).sum orbsP energiesP [(4, 5, 6), (1, 2, 3)] :=
  ⟨outP, ⟨storedP.1, storedP.2, storedP.3, storedP.4, storedP.5, storedP.6, rfl, rfl⟩, orbitalsP, rfl, _, countsP, by decide⟩

theorem monomerG : MonomerFiles filesS (lit "G.pun") (lit "G.log") .alpha ([2, 2] : List Int).sum orbsG energiesP [(4, 5, 6), (1, 2, 3)] :=
  ⟨outG, ⟨outG_ok.1, outG_ok.2, by unfold Fits; decide, by unfold Fits; decide, ⟨[], (lit "G"), [], rfl, .inl rfl, by decide, by decide, by simp⟩,
    ⟨[], (lit "G"), [], rfl, .inl rfl, by decide, by decide, by simp⟩, rfl, rfl⟩, ⟨rfl, by decide +kernel, rfl⟩, rfl, _, countsP, by decide⟩

/-- The files `P` as the reference for their own order of the atoms. -/
theorem dimerSelf : DimerFiles (id : Rat → Rat) filesS (lit "P.pun") (lit "P.log") .alpha [(4, 5, 6), (1, 2, 3)] [2, 2] 4 (coefOf orbsP) (overlapOf overlapP)
    energiesP := by
  refine ⟨outP, orbsP, [(4, 5, 6), (1, 2, 3)], [1, 2], overlapP,
    ⟨storedP.1, storedP.2, storedP.3, storedP.4, storedP.5, storedP.6, rfl, rfl⟩, orbitalsP, rfl, rfl, ?_, by exact countsP, ?_, rfl, ?_⟩
  · refine ⟨by decide, rfl, ?_, by unfold Alike; decide +kernel⟩
    intro k a x y h1 h2 h3
    match k, h1, h2 with
    | 0, h1, h2 => simp at h1 h2; subst h1 h2; simp at h3; subst h3; exact ⟨rfl, rfl, rfl⟩
    | 1, h1, h2 => simp at h1 h2; subst h1 h2; simp at h3; subst h3; exact ⟨rfl, rfl, rfl⟩
    | n + 2, h1, h2 => simp at h1
  · refine columnsAs_of ?_ ?_ (by decide +kernel)
    · intro i hi j
      unfold coefOf
      have h4 : orbsP.length = 4 := rfl
      have : (orbsP.map Orbital.coefs).getD (i - 1).toNat [] = [] := by
        rw [List.getD_eq_getElem?_getD, List.getElem?_eq_none (by rw [List.length_map]; omega)]
        rfl
      rw [this]
      rfl
    · intro i hi j
      unfold coefOf
      rw [show (i - 1).toNat = 0 by omega]; rfl
  · intro p q r c hp hq
    have e : colsOf [2, 2] [1, 2] = [1, 2, 3, 4] := by decide
    rw [e] at hp hq
    obtain ⟨hpl, -⟩ := (List.getElem?_eq_some_iff.1 hp)
    obtain ⟨hql, -⟩ := (List.getElem?_eq_some_iff.1 hq)
    have key : ∀ p : Nat, p < 4 → ∀ q : Nat, q < 4 → overlapOf overlapP ((p : Int) + 1) ((q : Int) + 1) =
      overlapOf overlapP (([1, 2, 3, 4] : List Int).getD p 0) (([1, 2, 3, 4] : List Int).getD q 0) := by decide +kernel
    have := key p hpl q hql
    rw [List.getD_eq_getElem?_getD, List.getD_eq_getElem?_getD, hp, hq] at this
    exact this

end Sample

section
open Sample
variable {D : Type} [Args.Dbl D]

theorem parseS (mP m1 m2 : Str) (h : (mP, m1, m2) ∈ [((lit "P"), (lit "1"), (lit "2")), ((lit "F"), (lit "1"), (lit "2")), ((lit "G"), (lit "1"), (lit "2")),
      ((lit "P"), (lit "N"), (lit "2")), ((lit "P"), (lit "1"), (lit "M"))]) :
    ∃ q : Args.Parser D, Args.parse (fsOf filesS) Args.calcJ
      [(lit "-p_P"), mP ++ (lit ".pun"), (lit "-p_1"), m1 ++ (lit ".pun"), (lit "-p_2"), m2 ++ (lit ".pun")] = .ok q ∧
    Args.prepareParameters q = .ok (sampleParams mP m1 m2 (lit "HOMO") false) := by
  rw [← Res.bind_eq_ok]
  simp only [List.mem_cons, List.not_mem_nil, or_false, Prod.mk.injEq] at h
  rcases h with ⟨rfl, rfl, rfl⟩ | ⟨rfl, rfl, rfl⟩ | ⟨rfl, rfl, rfl⟩ | ⟨rfl, rfl, rfl⟩ | ⟨rfl, rfl, rfl⟩
  all_goals kernel_rfl

/-- C99 and C100: the dimer's files `P` list the atoms in the opposite order to the files `F`. -/
example : ∃ r : Report Rat,
    Ends (fun fuel => calcJRun D (id : Rat → Rat) filesS fuel [(lit "-p_P"), (lit "P.pun"), (lit "-p_1"), (lit "1.pun"), (lit "-p_2"), (lit "2.pun")])
      (.ok (sampleParams (lit "P") (lit "1") (lit "2") (lit "HOMO") false, r)) ∧
    Ends (fun fuel => calcJRun D (id : Rat → Rat) filesS fuel [(lit "-p_P"), (lit "F.pun"), (lit "-p_1"), (lit "1.pun"), (lit "-p_2"), (lit "2.pun")])
      (.ok (sampleParams (lit "F") (lit "1") (lit "2") (lit "HOMO") false, r)) := by
  obtain ⟨q, hq, hpar⟩ := parseS (D := D) (lit "P") (lit "1") (lit "2") (by decide)
  obtain ⟨q', hq', hpar'⟩ := parseS (D := D) (lit "F") (lit "1") (lit "2") (by decide)
  exact C100_atom_order (id : Rat → Rat) filesS _ _ hq hpar hq' hpar' rfl (spinP := .alpha) (spin1 := .alpha) (spin2 := .alpha) rfl rfl rfl
    monomer1 monomer2 dimerP dimerF (by decide) (by decide) rfl rfl (by simp) (by simp) (row1 := 1) (row2 := 1)
    (.inl (by decide)) (.inl (by decide)) (by decide) (by decide)

/-- C101: orbitals 2 and 4 of the dimer are reversed in the files `G`. -/
example : ∃ r : Report Rat,
    Ends (fun fuel => calcJRun D (id : Rat → Rat) filesS fuel [(lit "-p_P"), (lit "P.pun"), (lit "-p_1"), (lit "1.pun"), (lit "-p_2"), (lit "2.pun")])
      (.ok (sampleParams (lit "P") (lit "1") (lit "2") (lit "HOMO") false, r)) ∧
    Ends (fun fuel => calcJRun D (id : Rat → Rat) filesS fuel [(lit "-p_P"), (lit "G.pun"), (lit "-p_1"), (lit "1.pun"), (lit "-p_2"), (lit "2.pun")])
      (.ok (sampleParams (lit "G") (lit "1") (lit "2") (lit "HOMO") false, r)) := by
  obtain ⟨q, hq, hpar⟩ := parseS (D := D) (lit "P") (lit "1") (lit "2") (by decide)
  obtain ⟨q', hq', hpar'⟩ := parseS (D := D) (lit "G") (lit "1") (lit "2") (by decide)
  exact C101_dimer_phases (id : Rat → Rat) filesS _ _ hq hpar hq' hpar' rfl (spinP := .alpha) (spin1 := .alpha) (spin2 := .alpha) rfl rfl rfl
    monomer1 monomer2 reversedG dimerP dimerG (by decide) (by decide) rfl rfl (by simp) (by simp) (row1 := 1) (row2 := 1)
    (.inl (by decide)) (.inl (by decide)) (by decide) (by decide)

/-- C101: the orbital of monomer 1 is reversed in the files `N`, that of monomer 2 in the files `M`. -/
example : ∃ jab ea eb sab jeff : Rat,
    Ends (fun fuel => calcJRun D (id : Rat → Rat) filesS fuel [(lit "-p_P"), (lit "P.pun"), (lit "-p_1"), (lit "1.pun"), (lit "-p_2"), (lit "2.pun")])
      (.ok (sampleParams (lit "P") (lit "1") (lit "2") (lit "HOMO") false, ⟨jab, ea, eb, sab, jeff⟩)) ∧
    Ends (fun fuel => calcJRun D (id : Rat → Rat) filesS fuel [(lit "-p_P"), (lit "P.pun"), (lit "-p_1"), (lit "N.pun"), (lit "-p_2"), (lit "2.pun")])
      (.ok (sampleParams (lit "P") (lit "N") (lit "2") (lit "HOMO") false, ⟨-jab, ea, eb, -sab, -jeff⟩)) := by
  obtain ⟨q, hq, hpar⟩ := parseS (D := D) (lit "P") (lit "1") (lit "2") (by decide)
  obtain ⟨q', hq', hpar'⟩ := parseS (D := D) (lit "P") (lit "N") (lit "2") (by decide)
  exact C101_first_phase (id : Rat → Rat) filesS _ _ hq hpar hq' hpar' rfl (spinP := .alpha) (spin1 := .alpha) (spin2 := .alpha) rfl rfl rfl
    monomer1 monomerN monomer2 dimerP (by decide) (by decide) rfl rfl (by simp) (by simp) (row1 := 1) (row2 := 1)
    (.inl (by decide)) (.inl (by decide)) (by decide) (by decide) ⟨rfl, by decide +kernel⟩

example : ∃ jab ea eb sab jeff : Rat,
    Ends (fun fuel => calcJRun D (id : Rat → Rat) filesS fuel [(lit "-p_P"), (lit "P.pun"), (lit "-p_1"), (lit "1.pun"), (lit "-p_2"), (lit "2.pun")])
      (.ok (sampleParams (lit "P") (lit "1") (lit "2") (lit "HOMO") false, ⟨jab, ea, eb, sab, jeff⟩)) ∧
    Ends (fun fuel => calcJRun D (id : Rat → Rat) filesS fuel [(lit "-p_P"), (lit "P.pun"), (lit "-p_1"), (lit "1.pun"), (lit "-p_2"), (lit "M.pun")])
      (.ok (sampleParams (lit "P") (lit "1") (lit "M") (lit "HOMO") false, ⟨-jab, ea, eb, -sab, -jeff⟩)) := by
  obtain ⟨q, hq, hpar⟩ := parseS (D := D) (lit "P") (lit "1") (lit "2") (by decide)
  obtain ⟨q', hq', hpar'⟩ := parseS (D := D) (lit "P") (lit "1") (lit "M") (by decide)
  exact C101_second_phase (id : Rat → Rat) filesS _ _ hq hpar hq' hpar' rfl (spinP := .alpha) (spin1 := .alpha) (spin2 := .alpha) rfl rfl rfl
    monomer1 monomer2 monomerM dimerP (by decide) (by decide) rfl rfl (by simp) (by simp) (row1 := 1) (row2 := 1)
    (.inl (by decide)) (.inl (by decide)) (by decide) (by decide) ⟨rfl, by decide +kernel⟩

theorem parseS_cp (mP m1 m2 : Str) (h : (mP, m1, m2) ∈ [((lit "P"), (lit "P"), (lit "P")), ((lit "P"), (lit "G"), (lit "P")), ((lit "P"), (lit "F"), (lit "P")),
      ((lit "P"), (lit "F"), (lit "G")), ((lit "G"), (lit "F"), (lit "P"))]) :
    ∃ q : Args.Parser D, Args.parse (fsOf filesS) Args.calcJ
      [(lit "-cp"), (lit "-p_P"), mP ++ (lit ".pun"), (lit "-p_1"), m1 ++ (lit ".pun"), (lit "-p_2"), m2 ++ (lit ".pun")] = .ok q ∧
    Args.prepareParameters q = .ok (sampleParams mP m1 m2 (lit "HOMO") true) := by
  rw [← Res.bind_eq_ok]
  simp only [List.mem_cons, List.not_mem_nil, or_false, Prod.mk.injEq] at h
  rcases h with ⟨rfl, rfl, rfl⟩ | ⟨rfl, rfl, rfl⟩ | ⟨rfl, rfl, rfl⟩ | ⟨rfl, rfl, rfl⟩ | ⟨rfl, rfl, rfl⟩
  all_goals kernel_rfl

/-- C101 with counterpoise: the second orbital is reversed in the files `G`, used for monomer 1, ... -/
example : ∃ jab ea eb sab jeff : Rat,
    Ends (fun fuel => calcJRun D (id : Rat → Rat) filesS fuel [(lit "-cp"), (lit "-p_P"), (lit "P.pun"), (lit "-p_1"), (lit "P.pun"), (lit "-p_2"), (lit "P.pun")])
      (.ok (sampleParams (lit "P") (lit "P") (lit "P") (lit "HOMO") true, ⟨jab, ea, eb, sab, jeff⟩)) ∧
    Ends (fun fuel => calcJRun D (id : Rat → Rat) filesS fuel [(lit "-cp"), (lit "-p_P"), (lit "P.pun"), (lit "-p_1"), (lit "G.pun"), (lit "-p_2"), (lit "P.pun")])
      (.ok (sampleParams (lit "P") (lit "G") (lit "P") (lit "HOMO") true, ⟨-jab, ea, eb, -sab, -jeff⟩)) := by
  obtain ⟨q, hq, hpar⟩ := parseS_cp (D := D) (lit "P") (lit "P") (lit "P") (by decide)
  obtain ⟨q', hq', hpar'⟩ := parseS_cp (D := D) (lit "P") (lit "G") (lit "P") (by decide)
  exact C101_first_phase_cp (id : Rat → Rat) filesS _ _ hq hpar hq' hpar' rfl (spinP := .alpha) (spin1 := .alpha) (spin2 := .alpha) rfl rfl rfl
    monomerP monomerG (listed_of dimerSelf) dimerSelf (by decide) rfl (by simp) (row1 := 2) (row2 := 2)
    (.inl (by decide)) (.inl (by decide)) (by decide) (by decide) ⟨rfl, by decide +kernel⟩

/-- ... for monomer 2, ... -/
example : ∃ jab ea eb sab jeff : Rat,
    Ends (fun fuel => calcJRun D (id : Rat → Rat) filesS fuel [(lit "-cp"), (lit "-p_P"), (lit "P.pun"), (lit "-p_1"), (lit "F.pun"), (lit "-p_2"), (lit "P.pun")])
      (.ok (sampleParams (lit "P") (lit "F") (lit "P") (lit "HOMO") true, ⟨jab, ea, eb, sab, jeff⟩)) ∧
    Ends (fun fuel => calcJRun D (id : Rat → Rat) filesS fuel [(lit "-cp"), (lit "-p_P"), (lit "P.pun"), (lit "-p_1"), (lit "F.pun"), (lit "-p_2"), (lit "G.pun")])
      (.ok (sampleParams (lit "P") (lit "F") (lit "G") (lit "HOMO") true, ⟨-jab, ea, eb, -sab, -jeff⟩)) := by
  obtain ⟨q, hq, hpar⟩ := parseS_cp (D := D) (lit "P") (lit "F") (lit "P") (by decide)
  obtain ⟨q', hq', hpar'⟩ := parseS_cp (D := D) (lit "P") (lit "F") (lit "G") (by decide)
  exact C101_second_phase_cp (id : Rat → Rat) filesS _ _ hq hpar hq' hpar' rfl (spinP := .alpha) (spin1 := .alpha) (spin2 := .alpha) rfl rfl rfl
    monomerF (listed_of dimerP) (listed_of dimerG) dimerP (by decide) rfl (by simp) (row1 := 2) (row2 := 2)
    (.inl (by decide)) (.inl (by decide)) (by decide) (by decide) (fun j => rfl)

/-- ... and for the dimer. -/
example : ∃ r : Report Rat,
    Ends (fun fuel => calcJRun D (id : Rat → Rat) filesS fuel [(lit "-cp"), (lit "-p_P"), (lit "P.pun"), (lit "-p_1"), (lit "F.pun"), (lit "-p_2"), (lit "P.pun")])
      (.ok (sampleParams (lit "P") (lit "F") (lit "P") (lit "HOMO") true, r)) ∧
    Ends (fun fuel => calcJRun D (id : Rat → Rat) filesS fuel [(lit "-cp"), (lit "-p_P"), (lit "G.pun"), (lit "-p_1"), (lit "F.pun"), (lit "-p_2"), (lit "P.pun")])
      (.ok (sampleParams (lit "G") (lit "F") (lit "P") (lit "HOMO") true, r)) := by
  obtain ⟨q, hq, hpar⟩ := parseS_cp (D := D) (lit "P") (lit "F") (lit "P") (by decide)
  obtain ⟨q', hq', hpar'⟩ := parseS_cp (D := D) (lit "G") (lit "F") (lit "P") (by decide)
  exact C101_dimer_phases_cp (id : Rat → Rat) filesS _ _ hq hpar hq' hpar' rfl (spinP := .alpha) (spin1 := .alpha) (spin2 := .alpha) rfl rfl rfl
    monomerF (listed_of dimerP) reversedG dimerP dimerG (by decide) rfl (by simp) (row1 := 2) (row2 := 2)
    (.inl (by decide)) (.inl (by decide)) (by decide) (by decide)

end

/-- In an arithmetic that rounds, sums depend on the order: the laws assumed in C101 are those of signs only. -/
example : ∃ a b c : Machine.Fl Machine.Fl.thousandths, (a * b) * c ≠ a * (b * c) := by
  refine ⟨⟨1 / 1000, by decide +kernel⟩, ⟨1 / 1000, by decide +kernel⟩, ⟨1000, by decide +kernel⟩, ?_⟩
  intro h
  have := congrArg Subtype.val h
  revert this
  decide +kernel

end Verif
