import Verif.Props.TransferThrow
import Verif.Props.FockEx
/-
C140: examples, and what is not true of `unscramble`: that a second call is harmless, and that one may correct the arguments after an exception.
-/
namespace Verif.TransferLeftEx
open QC Mat

def monA : Mat Rat := ⟨1, 1, 1, [some 1]⟩
def monB : Mat Rat := ⟨1, 1, 1, [some (1 / 2)]⟩
def dimer : Mat Rat := ⟨2, 2, 1, [some 1, some 0, some (-3 / 4), some (5 / 4)]⟩
def S : Mat Rat := ⟨2, 2, 1, [some 1, some (3 / 5), some (3 / 5), some 1]⟩
def oe : Mat Rat := ⟨2, 1, 1, [some (-1), some 2]⟩
/-- Two atoms on a line; the dimer lists that of monomer 2 first. -/
def at0 : Mat Rat := ⟨1, 1, 1, [some 0]⟩
def at1 : Mat Rat := ⟨1, 1, 1, [some 1]⟩
def at10 : Mat Rat := ⟨1, 2, 1, [some 1, some 0]⟩
def at01 : Mat Rat := ⟨1, 2, 1, [some 0, some 1]⟩
/-- Coordinates with another number of rows. -/
def plane : Mat Rat := ⟨2, 2, 1, [some 1, some 0, some 7, some 7]⟩

def T : TransferComplex Rat := ⟨monA, monB, dimer, (1, 1), (1, 1), S, oe, false, false⟩
def homo : Call Rat := .calcJ (fun _ => some "HOMO".toList) (fun _ => some 0)
def good : Call Rat := .unscramble at0 at1 at10 [1, 1] [1]
def bad : Call Rat := .unscramble at0 at1 plane [1, 1] [1]

theorem T_new : TransferComplex.new monA monB dimer (1, 1) (1, 1) S oe false = .ok T := rfl

/-- The number replied, if there is one. -/
def number : Reply Rat → Option Rat
  | .report _ (.ok r) => some r.jeff
  | _ => none

def warned : Reply Rat → Bool
  | .report w _ => w
  | _ => false

/-- How the call ended, as far as the caller can go on. -/
def back : Reply Rat → Option (Option Exn)
  | .unscrambled (.ok _) | .report _ (.ok _) => some none
  | .unscrambled (.throw e) | .report _ (.throw e) => some (some e)
  | _ => none

/-- C140 (refuted: a second call is harmless): the second of two equal calls of `unscramble` exchanges the atoms again, and another coupling results. -/
theorem C140_not_twice : number (serve id (servedAll id T [good]) homo).1 ≠ number (serve id (servedAll id T [good, good]) homo).1 ∧
    number (serve id (servedAll id T [good, good]) homo).1 = number (serve id T homo).1 ∧
    back (serve id T good).1 = some none ∧ back (serve id (servedAll id T [good]) good).1 = some none := by decide +kernel

/-- With counterpoise. -/
def wideA : Mat Rat := ⟨1, 2, 1, [some 1, some 0]⟩
def wideB : Mat Rat := ⟨1, 2, 1, [some (1 / 2), some (1 / 4)]⟩
def U : TransferComplex Rat := ⟨wideA, wideB, dimer, (1, 1), (1, 1), S, oe, false, true⟩
def goodC : Call Rat := .unscramble at01 at10 at01 [1, 1] [1, 1]
def badC : Call Rat := .unscramble at01 at10 plane [1, 1] [1, 1]

/-- C140 (refuted: one may correct the arguments after an exception): with counterpoise, a call that throws because of the dimer's coordinates has already
exchanged the atoms of monomer 2; when it is called again with the right coordinates, they are exchanged back, and another coupling results than
if the first call had been right. There is no warning either way. -/
theorem C140_not_retry : back (serve id U badC).1 = some (some .invalidArgument) ∧
    back (serve id (servedAll id U [badC]) goodC).1 = some none ∧
    number (serve id (servedAll id U [goodC]) homo).1 ≠ number (serve id (servedAll id U [badC, goodC]) homo).1 ∧
    (number (serve id (servedAll id U [badC, goodC]) homo).1).isSome = true ∧
    warned (serve id (servedAll id U [badC]) homo).1 = false := by decide +kernel

/-- C140 (the warning is no sign of success): after a call of `unscramble` that threw, `calcJ` computes with the atoms as they were, without a warning. -/
theorem C140_silent : back (serve id T bad).1 = some (some .invalidArgument) ∧ warned (serve id T homo).1 = true ∧
    warned (serve id (servedAll id T [bad]) homo).1 = false ∧
    number (serve id (servedAll id T [bad]) homo).1 = number (serve id T homo).1 ∧
    number (serve id T homo).1 ≠ number (serve id (servedAll id T [good]) homo).1 := by decide +kernel

/-! ### the hypotheses are met -/

/-- After any calls the checks of the constructor still hold. -/
example (calls : List (Call Rat)) :
    let T' := servedAll id T calls
    TransferComplex.new T'.coef1 T'.coef2 T'.coefP T'.orbs1 T'.orbs2 T'.S T'.oe T'.cp = .ok { T' with unscrambled := false } :=
  C140_checked id T_new (N2 := 1) (n2 := 1) (M := 2) (N := 2) (K := 2) (c2 := fun _ _ => 1 / 2) (C := FockEx.c) (s := FockEx.s)
    (Values.of_table (by decide +kernel)) (Values.of_table (by decide +kernel)) (Values.of_table (by decide +kernel)) calls

/-- Without counterpoise one may try again. -/
example : (T.unscrambleLeft id at0 at1 plane [1, 1] [1]).2.unscrambleLeft id at0 at1 at10 [1, 1] [1] = T.unscrambleLeft id at0 at1 at10 [1, 1] [1] :=
  C140_retry id T rfl [1, 1] [1] (r1 := 1) (k1 := 1) (r2 := 1) (k2 := 1) (rP := 2) (kP := 2) (M := 2) (N := 2) (K := 2) (N' := 2)
    (f1 := fun _ _ => 0) (f2 := fun _ _ => 1) (fP := fun i j => if i = 2 then 7 else if j = 1 then 1 else 0) (C := FockEx.c) (s := FockEx.s)
    (Values.of_table (by decide +kernel)) (Values.of_table (by decide +kernel)) (Values.of_table (by decide +kernel)) (Values.of_table (by decide +kernel))
    (Values.of_table (by decide +kernel)) (e := .invalidArgument) rfl at0 at1 at10 [1, 1] [1]

/-- What the exception leaves, with counterpoise: monomer 2 unscrambled, the dimer not. -/
example : U.unscrambleLeft id at01 at10 plane [1, 1] [1, 1] =
    (.throw .invalidArgument, { U with unscrambled := true, coef2 := ⟨1, 2, 1, [some (1 / 4), some (1 / 2)]⟩ }) := by
  obtain ⟨-, h⟩ := C140_throws_cp id U rfl (x1 := at01) (x2 := at10) (xP := plane) [1, 1] [1, 1] (r1 := 1) (k1 := 2) (r2 := 1) (k2 := 2) (rP := 2) (kP := 2)
    (N2 := 1) (n2 := 2) (M := 2) (N := 2) (K := 2) (N' := 2) (f1 := fun _ j => if j = 1 then 0 else 1) (f2 := fun _ j => if j = 1 then 1 else 0)
    (fP := fun i j => if i = 2 then 7 else if j = 1 then 1 else 0) (c2 := fun _ j => if j = 1 then 1 / 2 else 1 / 4) (C := FockEx.c) (s := FockEx.s)
    (Values.of_table (by decide +kernel)) (Values.of_table (by decide +kernel)) (Values.of_table (by decide +kernel)) (Values.of_table (by decide +kernel))
    (Values.of_table (by decide +kernel)) (Values.of_table (by decide +kernel))
  obtain ⟨l, hl, h, -⟩ := h rfl
  have e : matchCol id at01 at10 = .ok [2, 1] := by decide +kernel
  rw [e] at hl
  cases hl
  exact h _ (by decide +kernel) (by decide)

/-- A dimer in order is left alone. -/
example : T.unscramble id at0 at1 at01 [1, 1] [1] = .ok { T with unscrambled := true } := by
  refine C140_in_order id [1, 1] [1] (by decide) T rfl (QC.Values.wf (r := 2) (c := 2) (f := FockEx.c) (Values.of_table (by decide +kernel))) rfl rfl
    (QC.Values.wf (r := 2) (c := 2) (f := FockEx.s) (Values.of_table (by decide +kernel))) rfl rfl rfl at0 at1 at01
    (QC.Values.wf (r := 1) (c := 1) (f := fun _ _ => 0) (Values.of_table (by decide +kernel)))
    (QC.Values.wf (r := 1) (c := 1) (f := fun _ _ => 1) (Values.of_table (by decide +kernel)))
    (QC.Values.wf (r := 1) (c := 2) (f := fun _ j => if j = 1 then 0 else 1) (Values.of_table (by decide +kernel)))
    rfl rfl rfl rfl rfl rfl rfl ?_ ?_ ?_
  · intro i a b
    have : i ≤ 1 := b
    interval_cases i
    exact fun j c d => by have : j ≤ 1 := d; interval_cases j; exact ⟨0, 0, by decide +kernel, by decide +kernel, rfl⟩
  · intro i a b
    have : i ≤ 1 := b
    interval_cases i
    exact fun j c d => by have : j ≤ 1 := d; interval_cases j; exact ⟨1, 1, by decide +kernel, by decide +kernel, rfl⟩
  · intro i k a b c d h
    have : i ≤ 2 := b
    have : k ≤ 2 := d
    obtain ⟨x, y, hx, hy, hxy⟩ := h 1 (by decide) (by decide)
    have e1 : at01.getElem2 1 1 = .ok 0 := by decide +kernel
    have e2 : at01.getElem2 1 2 = .ok 1 := by decide +kernel
    have hxy : x = y := hxy
    subst hxy
    interval_cases i <;> interval_cases k
    · rfl
    · rw [e1] at hx; rw [e2] at hy; exact absurd ((Res.ok.inj hx).trans (Res.ok.inj hy).symm) (by decide +kernel)
    · rw [e2] at hx; rw [e1] at hy; exact absurd ((Res.ok.inj hx).trans (Res.ok.inj hy).symm) (by decide +kernel)
    · rfl

end Verif.TransferLeftEx
