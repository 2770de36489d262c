/-
Specification vocabulary: the character classes of the "C" locale, written independently of the model.
-/
namespace Verif

/-- White space: blank, tab, line feed, carriage return, vertical tab, form feed. -/
def White (c : Char) : Bool :=
  c = ' ' || c = '\t' || c = '\n' || c = '\r' || c = Char.ofNat 11 || c = Char.ofNat 12

/-- An ASCII letter. -/
def Letter (c : Char) : Bool := ('a' ≤ c && c ≤ 'z') || ('A' ≤ c && c ≤ 'Z')

/-- A decimal digit. -/
def Digit (c : Char) : Bool := '0' ≤ c && c ≤ '9'

/-- The three classes, spelt out by code points. -/
theorem white_iff (c : Char) : White c = true ↔ c.toNat = 32 ∨ (9 ≤ c.toNat ∧ c.toNat ≤ 13) := by
  constructor
  · intro h
    simp only [White, Bool.or_eq_true, decide_eq_true_eq] at h
    rcases h with ((((rfl | rfl) | rfl) | rfl) | rfl) | rfl <;> decide
  · intro h
    have hc : c = Char.ofNat c.toNat := (Char.ofNat_toNat c).symm
    have : c.toNat = 32 ∨ c.toNat = 9 ∨ c.toNat = 10 ∨ c.toNat = 11 ∨ c.toNat = 12 ∨ c.toNat = 13 := by omega
    rw [hc]
    rcases this with h | h | h | h | h | h <;> rw [h] <;> decide

end Verif
