import Verif.Props.SamePair
import Verif.Props.PhysicsEx
/-
C153: an instance.
-/
namespace Verif.PhysicsEx
open QC Mat FockEx

/-- A plain job, and a counterpoise job of the same pair: each monomer's function two, respectively minus three times as large, monomer 2's orbital with the other
sign, the dimer's orbitals in the other order and one of them with the other sign, the energies in half the unit from a zero that is ten lower. -/
def monP1 : Mat Rat := ⟨1, 2, 1, [some (1 / 2), some 0]⟩
def monP2 : Mat Rat := ⟨1, 2, 1, [some 0, some (1 / 3)]⟩
def dimerP' : Mat Rat := ⟨2, 2, 1, [some (-3 / 8), some (-5 / 12), some (-1 / 2), some 0]⟩
def oeP' : Mat Rat := ⟨2, 1, 1, [some 14, some 8]⟩

theorem sample_same : SamePair 2 2 2 (zetaA false 1 one) (zetaB false 1 one) (zetaA true 2 fun j => if j = 1 then 1 / 2 else 0)
    (zetaB true 2 fun j => if j = 1 then 0 else 1 / 3) s s' c (fun i j => if i = 1 then c' 2 j else - c' 1 j) E (fun i => if i = 1 then 14 else 8) scale swap 1 (-1) 2 10 where
  overlaps := by intro p q a b c d; interval_cases p <;> interval_cases q <;> decide +kernel
  first := by intro q a b; interval_cases q <;> decide +kernel
  second := by intro q a b; interval_cases q <;> decide +kernel
  dimer := by intro m a b q c d; interval_cases m <;> interval_cases q <;> decide +kernel
  orthogonal := by intro m q a b c d; interval_cases m <;> interval_cases q <;> decide +kernel
  energies := by intro m q a b c d; interval_cases m <;> interval_cases q <;> decide +kernel

/-- The coupling is twice that of the first job, with the other sign. -/
example : calculateTransferIntegral monP1 monP2 dimerP' S' oeP' true = .ok (9 / 5) := by
  obtain ⟨r, r', -, -, e3, e4, h⟩ := C153_report (coef1 := mon) (coef2 := mon) (coefP := dimer) (S := S) (oe := oe) (coef1' := monP1) (coef2' := monP2)
    (coefP' := dimerP') (S' := S') (oe' := oeP') (cp := false) (cp' := true) (n1 := 1) (n2 := 1) (n1' := 2) (n2' := 2) (M := 2) (K := 2) (K' := 2) (u := one) (v := one)
    (by decide)
    (Values.of_table (by decide +kernel)) (Values.of_table (by decide +kernel)) (Values.of_table (by decide +kernel)) (Values.of_table (by decide +kernel))
    (Or.inl (Values.of_table (by decide +kernel))) (by decide)
    (Values.of_table (by decide +kernel)) (Values.of_table (by decide +kernel)) (Values.of_table (by decide +kernel)) (Values.of_table (by decide +kernel))
    (Or.inl (Values.of_table (by decide +kernel))) (by decide) (.inl rfl) (.inr rfl) sample_same
    (.inr ⟨by unfold Normed; decide +kernel, by unfold Normed; decide +kernel⟩)
  have e : calculateTransferIntegral mon mon dimer S oe false = .ok (-9 / 10 : Rat) := by decide +kernel
  rw [e] at e3
  rw [e4, h.jeff, ← Res.ok.inj e3]
  decide +kernel

end Verif.PhysicsEx
