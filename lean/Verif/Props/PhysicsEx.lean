import Verif.Props.PhysicsB
import Verif.Props.FockEx
/-
Examples for C136-C139.
-/
namespace Verif.PhysicsEx
open QC Mat FockEx

/-! ### Other basis functions -/

/-- Each monomer's function made twice, respectively three times, as large, and the second turned round. -/
def scale (p q : Int) : Rat := if p ≠ q then 0 else if p = 1 then 2 else -3
def mon1' : Mat Rat := ⟨1, 1, 1, [some (1 / 2)]⟩
def mon2' : Mat Rat := ⟨1, 1, 1, [some (-1 / 3)]⟩
def dimer' : Mat Rat := ⟨2, 2, 1, [some (1 / 2), some 0, some (-3 / 8), some (-5 / 12)]⟩
def S' : Mat Rat := ⟨2, 2, 1, [some 4, some (-18 / 5), some (-18 / 5), some 9]⟩
def c' (i j : Int) : Rat := if i = 1 then (if j = 1 then 1 / 2 else 0) else if j = 1 then -3 / 8 else -5 / 12
def s' (i j : Int) : Rat := if i ≠ j then -18 / 5 else if i = 1 then 4 else 9

/-- The same pair in the other functions has the same coupling. -/
example : calculateTransferIntegral mon1' mon2' dimer' S' oe false = .ok (-9 / 10) := by
  have h := C136_monomers (coef1 := mon) (coef2 := mon) (coefP := dimer) (S := S) (oe := oe) (coef1' := mon1') (coef2' := mon2') (coefP' := dimer') (S' := S')
    (n1 := 1) (n2 := 1) (n1' := 1) (n2' := 1) (M := 2) (K := 2) (K' := 2) (u := one) (v := one) (u' := fun _ => 1 / 2) (v' := fun _ => -1 / 3)
    (C := c) (s := s) (C' := c') (s' := s') (T := scale) (E := E)
    (Values.of_table (by decide +kernel)) (Values.of_table (by decide +kernel)) (Values.of_table (by decide +kernel)) (Values.of_table (by decide +kernel))
    (Or.inl (Values.of_table (by decide +kernel)))
    (Values.of_table (by decide +kernel)) (Values.of_table (by decide +kernel)) (Values.of_table (by decide +kernel)) (Values.of_table (by decide +kernel))
    rfl rfl
    (by intro p q a b c d; interval_cases p <;> interval_cases q <;> decide +kernel)
    (by intro p q a b c d; interval_cases p <;> interval_cases q <;> decide +kernel)
    (by intro q a b; interval_cases q; decide +kernel)
    (by intro q a b; interval_cases q; decide +kernel)
    (by intro m a b q c d; interval_cases m <;> interval_cases q <;> decide +kernel)
  rw [h.2]
  decide +kernel

/-- With the counterpoise correction the functions of the dimer may be mixed: turned by the angle with cosine 3/5. -/
def turn (p q : Int) : Rat := if p = q then 3 / 5 else if p = 1 then 4 / 5 else -4 / 5
def monA : Mat Rat := ⟨1, 2, 1, [some 1, some 0]⟩
def monB : Mat Rat := ⟨1, 2, 1, [some 0, some 1]⟩
def monA' : Mat Rat := ⟨1, 2, 1, [some (3 / 5), some (-4 / 5)]⟩
def monB' : Mat Rat := ⟨1, 2, 1, [some (4 / 5), some (3 / 5)]⟩
def dimerT : Mat Rat := ⟨2, 2, 1, [some (3 / 5), some (-4 / 5), some (11 / 20), some (27 / 20)]⟩
def ST : Mat Rat := ⟨2, 2, 1, [some (197 / 125), some (-21 / 125), some (-21 / 125), some (53 / 125)]⟩
def cT (i j : Int) : Rat := if i = 1 then (if j = 1 then 3 / 5 else -4 / 5) else if j = 1 then 11 / 20 else 27 / 20
def sT (i j : Int) : Rat := if i ≠ j then -21 / 125 else if i = 1 then 197 / 125 else 53 / 125

example : calculateTransferIntegral monA' monB' dimerT ST oe true = .ok (-9 / 10) := by
  have h := C136_counterpoise (coef1 := monA) (coef2 := monB) (coefP := dimer) (S := S) (oe := oe) (coef1' := monA') (coef2' := monB') (coefP' := dimerT) (S' := ST)
    (M := 2) (K := 2) (K' := 2) (u := fun j => if j = 1 then 1 else 0) (v := fun j => if j = 1 then 0 else 1) (u' := fun j => if j = 1 then 3 / 5 else -4 / 5)
    (v' := fun j => if j = 1 then 4 / 5 else 3 / 5) (C := c) (s := s) (C' := cT) (s' := sT) (T := turn) (E := E)
    (Values.of_table (by decide +kernel)) (Values.of_table (by decide +kernel)) (Values.of_table (by decide +kernel)) (Values.of_table (by decide +kernel))
    (Or.inl (Values.of_table (by decide +kernel)))
    (Values.of_table (by decide +kernel)) (Values.of_table (by decide +kernel)) (Values.of_table (by decide +kernel)) (Values.of_table (by decide +kernel))
    (by intro p q a b c d; interval_cases p <;> interval_cases q <;> decide +kernel)
    (by intro q a b; interval_cases q <;> decide +kernel)
    (by intro q a b; interval_cases q <;> decide +kernel)
    (by intro m a b q c d; interval_cases m <;> interval_cases q <;> decide +kernel)
  rw [h.2]
  decide +kernel

/-- Without the correction mixing the functions of the two monomers is another pair: the hypothesis `KeepsMonomers` is needed. The second function is
replaced by the sum of both; the monomers' own coefficients stay. -/
example : calculateTransferIntegral mon mon dimer S oe false ≠
    calculateTransferIntegral mon mon (⟨2, 2, 1, [some 1, some 0, some (-2), some (5 / 4)]⟩ : Mat Rat)
      ⟨2, 2, 1, [some 1, some (8 / 5), some (8 / 5), some (16 / 5)]⟩ oe false := by decide +kernel

/-! ### Other dimer orbitals -/

/-- The orbitals in the other order, one with the other sign. -/
def swap (p q : Int) : Rat := if p = q then 0 else if p = 1 then 1 else -1
def dimerW : Mat Rat := ⟨2, 2, 1, [some (-3 / 4), some (5 / 4), some (-1), some 0]⟩
def oeW : Mat Rat := ⟨2, 1, 1, [some 2, some (-1)]⟩

example : calculateTransferIntegral mon mon dimerW S oeW false = .ok (-9 / 10) := by
  have h := C137_rechosen (coef1 := mon) (coef2 := mon) (coefP := dimer) (coefP' := dimerW) (S := S) (oe := oe) (oe' := oeW) (cp := false)
    (n1 := 1) (n2 := 1) (M := 2) (N := 2) (K := 2) (u := one) (v := one) (C := c)
    (C' := fun i j => if i = 1 then c 2 j else - c 1 j) (s := s) (U := swap) (E := E) (E' := fun i => if i = 1 then 2 else -1)
    (Values.of_table (by decide +kernel)) (Values.of_table (by decide +kernel)) (Values.of_table (by decide +kernel)) (Values.of_table (by decide +kernel))
    (Values.of_table (by decide +kernel)) (Or.inl (Values.of_table (by decide +kernel))) (Or.inl (Values.of_table (by decide +kernel))) (by decide)
    ⟨by intro m q a b c d; interval_cases m <;> interval_cases q <;> decide +kernel,
     by intro m q a b c d; interval_cases m <;> interval_cases q <;> decide +kernel,
     by intro m q a b c d; interval_cases m <;> interval_cases q <;> decide +kernel⟩
  rw [h.2]
  decide +kernel

/-- Two orbitals of the same energy, turned into one another; the third has another energy and stays. -/
def dimer3 : Mat Rat := ⟨3, 2, 1, [some 1, some 0, some 0, some 1, some 2, some 1]⟩
def dimer3' : Mat Rat := ⟨3, 2, 1, [some (3 / 5), some (4 / 5), some (-4 / 5), some (3 / 5), some 2, some 1]⟩
def oe3 : Mat Rat := ⟨3, 1, 1, [some (-1), some (-1), some 5]⟩
def c3 (i j : Int) : Rat := if i = 1 then (if j = 1 then 1 else 0) else if i = 2 then (if j = 1 then 0 else 1) else if j = 1 then 2 else 1
def turn3 (p q : Int) : Rat :=
  if p = 3 ∨ q = 3 then (if p = q then 1 else 0) else if p = q then 3 / 5 else if p = 1 then 4 / 5 else -4 / 5

example : calculateTransferIntegral mon mon dimer3' S oe3 false = calculateTransferIntegral mon mon dimer3 S oe3 false :=
  (C137_rechosen (coef1 := mon) (coef2 := mon) (coefP := dimer3) (coefP' := dimer3') (S := S) (oe := oe3) (oe' := oe3) (cp := false)
    (n1 := 1) (n2 := 1) (M := 3) (N := 2) (K := 2) (u := one) (v := one) (C := c3)
    (C' := fun i j => turn3 i 1 * c3 1 j + turn3 i 2 * c3 2 j + turn3 i 3 * c3 3 j) (s := s) (U := turn3) (E := fun i => if i = 3 then 5 else -1)
    (E' := fun i => if i = 3 then 5 else -1)
    (Values.of_table (by decide +kernel)) (Values.of_table (by decide +kernel)) (Values.of_table (by decide +kernel)) (Values.of_table (by decide +kernel))
    (Values.of_table (by decide +kernel)) (Or.inl (Values.of_table (by decide +kernel))) (Or.inl (Values.of_table (by decide +kernel))) (by decide)
    ⟨by intro m q a b c d; interval_cases m <;> interval_cases q <;> decide +kernel,
     by intro m q a b c d; interval_cases m <;> interval_cases q <;> decide +kernel,
     by intro m q a b c d; interval_cases m <;> interval_cases q <;> decide +kernel⟩).2

/-- With different energies it would be another pair. -/
example : calculateTransferIntegral mon mon dimer3' S (⟨3, 1, 1, [some (-1), some 0, some 5]⟩ : Mat Rat) false ≠
    calculateTransferIntegral mon mon dimer3 S ⟨3, 1, 1, [some (-1), some 0, some 5]⟩ false := by decide +kernel

/-! ### The range of the energies -/

/-- The pair of C132's example: the sum of the two orbitals has the mean energy -2/5, the difference 7/5. -/
example : calculateTransferIntegral mon mon dimer S oe false = .ok ((-2 / 5 - 7 / 5) / 2) := by
  obtain ⟨r, h, k⟩ := C138_halves (coef1 := mon) (coef2 := mon) (coefP := dimer) (S := S) (oe := oe) (cp := false)
    (n1 := 1) (n2 := 1) (M := 2) (N := 2) (K := 2) (u := one) (v := one) (C := c) (s := s) (E := E) (by decide)
    (Values.of_table (by decide +kernel)) (Values.of_table (by decide +kernel)) (Values.of_table (by decide +kernel)) (Values.of_table (by decide +kernel))
    (Or.inl (Values.of_table (by decide +kernel))) (by decide) (by unfold Normed; decide +kernel) (by unfold Normed; decide +kernel)
  have e : (transferReport mon mon dimer S oe false).bind (fun r => .ok r.sab) = .ok (3 / 5) := by decide +kernel
  rw [h] at e
  have e' : r.sab = 3 / 5 := Res.ok.inj e
  rw [k (by rw [e']; norm_num)]
  decide +kernel

/-- Its coupling is at most half the distance of the energies -1 and 2. -/
example : ∃ r, transferReport mon mon dimer S oe false = .ok r ∧ |r.jeff| ≤ 3 / 2 := by
  obtain ⟨r, h, -, -, -, -, -, -, -, k⟩ := C138_range (coef1 := mon) (coef2 := mon) (coefP := dimer) (S := S) (oe := oe) (cp := false)
    (n1 := 1) (n2 := 1) (M := 2) (N := 2) (K := 2) (u := one) (v := one) (C := c) (s := s) (E := E) (lo := -1) (hi := 2)
    (Values.of_table (by decide +kernel)) (Values.of_table (by decide +kernel)) (Values.of_table (by decide +kernel)) (Values.of_table (by decide +kernel))
    (Or.inl (Values.of_table (by decide +kernel))) (by decide) (by unfold Normed; decide +kernel) (by unfold Normed; decide +kernel)
    (by intro m a b; interval_cases m <;> decide +kernel)
  exact ⟨r, h, k.trans (by norm_num)⟩

/-- The bound is attained: the sum of the monomers' orbitals is the dimer's first orbital, the difference the second. -/
example : calculateTransferIntegral mon mon (⟨2, 2, 1, [some (3 / 5), some (3 / 5), some (4 / 5), some (-4 / 5)]⟩ : Mat Rat)
    ⟨2, 2, 1, [some 1, some 0, some 0, some 1]⟩ oe false = .ok (-3 / 2) := by decide +kernel

/-! ### Monomers apart -/

def apart : Mat Rat := ⟨2, 2, 1, [some 1, some 0, some 0, some 1]⟩
def ident (i j : Int) : Rat := if i = j then 1 else 0

example : calculateTransferIntegral mon mon apart apart oe false = .ok 0 := by
  obtain ⟨-, -, -, -, -, k⟩ := C139_localised (coef1 := mon) (coef2 := mon) (coefP := apart) (S := apart) (oe := oe)
    (n1 := 1) (n2 := 1) (M := 2) (K := 2) (u := one) (v := one) (C := ident) (s := ident) (E := E)
    (Values.of_table (by decide +kernel)) (Values.of_table (by decide +kernel)) (Values.of_table (by decide +kernel)) (Values.of_table (by decide +kernel))
    (Or.inl (Values.of_table (by decide +kernel))) rfl
    (by intro p q a b c d; interval_cases p <;> interval_cases q <;> decide +kernel)
    (by
      intro m a b
      interval_cases m
      · exact Or.inr fun q c d => by interval_cases q; decide +kernel
      · exact Or.inl fun q c d => by interval_cases q; decide +kernel)
  exact k

/-- Two equal monomers apart: the dimer's orbitals spread over both, with the same energy. -/
def spread : Mat Rat := ⟨2, 2, 1, [some (3 / 5), some (4 / 5), some (-4 / 5), some (3 / 5)]⟩

example : calculateTransferIntegral mon mon spread apart (⟨2, 1, 1, [some 7, some 7]⟩ : Mat Rat) false = .ok 0 := by
  obtain ⟨-, -, -, -, -, k⟩ := C139_fock (coef1 := mon) (coef2 := mon) (coefP := spread) (S := apart) (oe := ⟨2, 1, 1, [some 7, some 7]⟩)
    (n1 := 1) (n2 := 1) (K := 2) (u := one) (v := one) (C := turn) (s := ident) (F := fun i j => 7 * ident i j) (E := fun _ => 7)
    (Values.of_table (by decide +kernel)) (Values.of_table (by decide +kernel)) (Values.of_table (by decide +kernel)) (Values.of_table (by decide +kernel))
    (Or.inl (Values.of_table (by decide +kernel))) rfl
    (by intro p q a b c d; interval_cases p <;> interval_cases q <;> decide +kernel)
    (by intro p q a b c d; interval_cases p <;> interval_cases q <;> decide +kernel)
    (by intro p q a b c d; interval_cases p <;> interval_cases q <;> decide +kernel)
    (by intro p q a b c d; interval_cases p <;> interval_cases q <;> decide +kernel)
  exact k

end Verif.PhysicsEx
