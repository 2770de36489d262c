import Verif.Props.ExchangeJob
import Verif.Props.Depends
import Verif.ConcreteRounding
/-
Examples for C148 and C149.
-/
namespace Verif.ExchangeEx
open Strings Readers QC Mat Log Pun Job Args Machine Sample

/-- The double next to a number (towards zero). -/
def dbl (x : Rat) : Dbl53 := ⟨(Fl.binary 52).rnd x, (Fl.binary 52).idem x⟩

def matA (a : Dbl53) : Mat Dbl53 := ⟨1, 1, 1, [some a]⟩

theorem dbl_mul_comm (a b : Dbl53) : a * b = b * a := Subtype.ext (congrArg (Fl.binary 52).rnd (mul_comm a.1 b.1))
theorem dbl_add_comm (a b : Dbl53) : a + b = b + a := Subtype.ext (congrArg (Fl.binary 52).rnd (add_comm a.1 b.1))

/-- C149 for doubles. -/
example : ∃ r r', transferReport (matA (dbl (3 / 10))) (matA (dbl (1 / 10))) (matA 1) (matA 1) (matA (dbl (1 / 10))) true = .ok r ∧
    transferReport (matA (dbl (1 / 10))) (matA (dbl (3 / 10))) (matA 1) (matA 1) (matA (dbl (1 / 10))) true = .ok r' ∧
    r'.ea = r.eb ∧ r'.eb = r.ea ∧ r'.sab = r.sab ∧ (r'.jab = r.jab → r' = exchange r) :=
  C149_swap dbl_mul_comm dbl_add_comm (n1 := 1) (n2 := 1) (M := 1) (N := 1) (K := 1) (u := fun _ => dbl (3 / 10)) (v := fun _ => dbl (1 / 10))
    (C := fun _ _ => 1) (s := fun _ _ => 1) (E := fun _ => dbl (1 / 10))
    (Values.of_table (by decide +kernel)) (Values.of_table (by decide +kernel)) (Values.of_table (by decide +kernel)) (Values.of_table (by decide +kernel))
    (Or.inl (Values.of_table (by decide +kernel))) (by decide)

/-- C149: in doubles J_ab is in general not the same bit for bit, so `C149_assoc` needs its associativity. -/
theorem C149_inexact : ∃ a b e : Dbl53,
    ¬ ∃ r, transferReport (matA a) (matA b) (matA 1) (matA 1) (matA e) true = .ok r ∧
      transferReport (matA b) (matA a) (matA 1) (matA 1) (matA e) true = .ok (exchange r) := by
  refine ⟨dbl (3 / 10), dbl (1 / 10), dbl (1 / 10), ?_⟩
  rintro ⟨r, h, h'⟩
  have key : (transferReport (matA (dbl (3 / 10))) (matA (dbl (1 / 10))) (matA 1) (matA 1) (matA (dbl (1 / 10))) true >>= fun r => Res.ok r.jab) ≠
      (transferReport (matA (dbl (1 / 10))) (matA (dbl (3 / 10))) (matA 1) (matA 1) (matA (dbl (1 / 10))) true >>= fun r => Res.ok r.jab) := by decide +kernel
  rw [h, h'] at key
  exact key rfl

/-- In exact arithmetic everything is exchanged. -/
example : ∃ r, transferReport (⟨1, 1, 1, [some 3]⟩ : Mat Rat) ⟨1, 1, 1, [some 2]⟩ ⟨1, 1, 1, [some 5]⟩ ⟨1, 1, 1, [some 1]⟩ ⟨1, 1, 1, [some 7]⟩ true = .ok r ∧
    transferReport (⟨1, 1, 1, [some 2]⟩ : Mat Rat) ⟨1, 1, 1, [some 3]⟩ ⟨1, 1, 1, [some 5]⟩ ⟨1, 1, 1, [some 1]⟩ ⟨1, 1, 1, [some 7]⟩ true = .ok (exchange r) :=
  C149_assoc mul_comm add_comm mul_assoc (n1 := 1) (n2 := 1) (M := 1) (N := 1) (K := 1) (u := fun _ => 3) (v := fun _ => 2) (C := fun _ _ => 5) (s := fun _ _ => 1)
    (E := fun _ => 7)
    (Values.of_table (by decide +kernel)) (Values.of_table (by decide +kernel)) (Values.of_table (by decide +kernel)) (Values.of_table (by decide +kernel))
    (Or.inl (Values.of_table (by decide +kernel))) (by decide)

/-- C149 without counterpoise, for doubles: the blocks of the overlap matrix and of the coefficients are exchanged. -/
example : ∃ r', transferReport (matA (dbl (1 / 10))) (matA (dbl (3 / 10))) ⟨1, 2, 1, [some (dbl (1 / 5)), some 1]⟩ ⟨2, 2, 1, [some 1, some 0, some (dbl (1 / 7)), some 1]⟩
      (matA (dbl (1 / 10))) false = .ok r' ∧
    Accurate ((1 / 2) ^ 52 : Rat) Fl.toRat (exchange r') 2 2 1 (zetaA false 1 fun _ => Fl.toRat (dbl (3 / 10))) (zetaB false 1 fun _ => Fl.toRat (dbl (1 / 10)))
      (fun p q => Fl.toRat (if p = q then 1 else if p = 1 then dbl (1 / 7) else 0)) (fun _ q => Fl.toRat (if q = 1 then 1 else dbl (1 / 5)))
      (fun _ => Fl.toRat (dbl (1 / 10))) :=
  C149_report (Fl.binary_rounds 52) (n1 := 1) (n2 := 1) (u := fun _ => dbl (3 / 10)) (v := fun _ => dbl (1 / 10))
    (C := fun _ q => if q = 1 then 1 else dbl (1 / 5)) (s := fun p q => if p = q then 1 else if p = 1 then dbl (1 / 7) else 0) (E := fun _ => dbl (1 / 10))
    (Values.of_table (by decide +kernel)) (Values.of_table (by decide +kernel)) (Or.inl (Values.of_table (by decide +kernel)))
    (Values.of_table (by decide +kernel)) (Values.of_table (by decide +kernel))

/-- The command line with the monomers exchanged. -/
def asgX : List Asg := [.value (lit "--pun_P") .pun (lit "P.pun"), .value (lit "--pun_1") .pun (lit "2.pun"), .value (lit "--pun_2") .pun (lit "1.pun")]

theorem intelligibleX : Intelligible [(lit "-p_P"), (lit "P.pun"), (lit "-p_1"), (lit "2.pun"), (lit "-p_2"), (lit "1.pun")] asgX := by
  refine ⟨by decide, ?_, by simp [asgX], ?_, by decide, by decide⟩
  · exact .value (s := lit "-p_P") (by decide) (.inr rfl) (.value (s := lit "-p_1") (by decide) (.inr rfl) (.value (s := lit "-p_2") (by decide) (.inr rfl) .nil))
  · intro a ha
    simp only [asgX, List.mem_cons, List.not_mem_nil, or_false] at ha
    rcases ha with rfl | rfl | rfl
    · exact ⟨[], (lit "P"), (lit ".pun"), parts (lit "P") (lit ".pun") (by decide), by decide⟩
    · exact ⟨[], (lit "2"), (lit ".pun"), parts (lit "2") (lit ".pun") (by decide), by decide⟩
    · exact ⟨[], (lit "1"), (lit ".pun"), parts (lit "1") (lit ".pun") (by decide), by decide⟩

def fileX (f : Str) : Str :=
  if f = (lit "--pun_P") then (lit "P.pun") else if f = (lit "--pun_1") then (lit "2.pun") else if f = (lit "--pun_2") then (lit "1.pun")
  else if f = (lit "--log_P") then (lit "P.log") else if f = (lit "--log_1") then (lit "2.log") else (lit "1.log")

theorem meantX : FilesMeant filesS asgX fileX := by
  intro x hx
  simp only [inputFiles, List.mem_cons, List.not_mem_nil, or_false] at hx
  rcases hx with rfl | rfl | rfl | rfl | rfl | rfl
  · exact ⟨.explicit (by decide) rfl, ⟨(lit "P"), by decide⟩⟩
  · exact ⟨.explicit (by decide) rfl, ⟨(lit "2"), by decide⟩⟩
  · exact ⟨.explicit (by decide) rfl, ⟨(lit "1"), by decide⟩⟩
  · exact ⟨.sister (w := lit "P.pun") (dir := []) (core := lit "P") (e := lit ".log") (by decide) (by decide) (parts (lit "P") (lit ".pun") (by decide)) (by decide) rfl,
      ⟨(lit "P"), by decide⟩⟩
  · exact ⟨.sister (w := lit "2.pun") (dir := []) (core := lit "2") (e := lit ".log") (by decide) (by decide) (parts (lit "2") (lit ".pun") (by decide)) (by decide) rfl,
      ⟨(lit "2"), by decide⟩⟩
  · exact ⟨.sister (w := lit "1.pun") (dir := []) (core := lit "1") (e := lit ".log") (by decide) (by decide) (parts (lit "1") (lit ".pun") (by decide)) (by decide) rfl,
      ⟨(lit "1"), by decide⟩⟩

section
variable {D : Type} [Args.Dbl D]

/-- C149 on the sample command line. -/
example : ∃ par par' r r',
    Ends (fun fuel => calcJRun D (id : Rat → Rat) filesS fuel [(lit "-p_P"), (lit "P.pun"), (lit "-p_1"), (lit "1.pun"), (lit "-p_2"), (lit "2.pun")]) (.ok (par, r)) ∧
    Ends (fun fuel => calcJRun D (id : Rat → Rat) filesS fuel [(lit "-p_P"), (lit "P.pun"), (lit "-p_1"), (lit "2.pun"), (lit "-p_2"), (lit "1.pun")]) (.ok (par', r')) ∧
    Accurate (0 : Rat) id r ([2] ++ [2] : List Int).sum ([2] ++ [2] : List Int).sum (energies energiesP).length
      (zetaA false ([2] : List Int).sum fun p => coefOf orbs1 1 p) (zetaB false ([2] : List Int).sum fun p => coefOf orbs2 1 p) alignedS alignedC
      (energyOf energiesP) ∧
    Accurate (0 : Rat) id (exchange r') ([2] ++ [2] : List Int).sum ([2] ++ [2] : List Int).sum (energies energiesP).length
      (zetaA false ([2] : List Int).sum fun p => coefOf orbs1 1 p) (zetaB false ([2] : List Int).sum fun p => coefOf orbs2 1 p) alignedS alignedC
      (energyOf energiesP) :=
  C149_numbers (D := D) exact_rounds (id : Rat → Rat) filesS intelligibleA intelligibleX meantA meantX rfl rfl (spinP := .alpha) (spin1 := .alpha) (spin2 := .alpha)
    rfl rfl rfl rfl rfl rfl ⟨rfl, rfl⟩ ⟨rfl, rfl⟩ ⟨rfl, rfl⟩
    monomer1 monomer2 dimerP (by decide) (by decide) rfl rfl (by simp) (by simp) (n1 := 0) (n2 := 0) (n1' := 0) (n2' := 0) (row1 := 1) (row2 := 1) rfl rfl rfl rfl
    (.inl (by decide)) (.inl (by decide)) (.inl (by decide)) (.inl (by decide)) (by decide) (by decide)

end

/-! ### C148 -/

/-- Two requests: in the second, monomer 1 has another orbital below the one asked for, with other numbers. -/
def mon1 : Mat Rat := ⟨1, 2, 1, [some 2, some 1]⟩
def mon1' : Mat Rat := ⟨2, 2, 1, [some 77, some (-5), some 2, some 1]⟩
def mon2 : Mat Rat := ⟨1, 2, 1, [some 1, some (-1)]⟩
def dimer : Mat Rat := ⟨2, 2, 1, [some 1, some 0, some 2, some 1]⟩
def unit : Mat Rat := ⟨2, 2, 1, [some 1, some 0, some 0, some 1]⟩

example {r r' : Report Rat} (h : MachineReport true mon1 mon2 dimer unit [-1, 3] 1 1 r) (h' : MachineReport true mon1' mon2 dimer unit [-1, 3] 2 1 r') : r' = r := by
  refine h.depends h' ⟨rfl, ⟨rfl, rfl, rfl, rfl, rfl, rfl⟩, ?_, fun _ _ _ => rfl, fun _ _ _ _ _ _ => rfl, fun _ _ _ _ _ _ => rfl, rfl⟩
  intro j a b
  have b' : j ≤ 2 := b
  obtain rfl | rfl : j = 1 ∨ j = 2 := by omega
  · rfl
  · rfl

end Verif.ExchangeEx
