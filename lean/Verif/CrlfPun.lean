import Verif.CrlfLemmas
/-
What a punch file says does not depend on its line ends.
-/
namespace Verif.Crlf
open Readers Log
open Pun

variable {α : Type} [Mul α] [Num α]

theorem cr_length {l l' : Str} (h : Cr l l') (hl : l.length % 15 ≠ 14) : l'.length / 15 = l.length / 15 := by
  rcases h with rfl | rfl
  · rfl
  · rw [List.length_append, List.length_singleton]; omega

theorem fields_cr {l l' : Str} (h : Cr l l') (hl : l.length % 15 ≠ 14) : fields l' = fields l := by
  unfold fields
  rw [cr_length h hl]
  apply List.map_congr_left
  intro k hk
  rw [List.mem_range] at hk
  rcases h with rfl | rfl
  · rfl
  · have : 15 * k + 15 ≤ l.length := by
      have := Nat.div_mul_le_self l.length 15
      have : (k + 1) * 15 ≤ l.length / 15 * 15 := Nat.mul_le_mul_right _ hk
      omega
    rw [List.drop_append_of_le_length (by omega), List.take_append_of_le_length (by rw [List.length_drop]; omega)]

theorem row_short {t : Str} (ht : NoneShort t) (i j : Nat) : (rowLine t i j).length % 15 ≠ 14 := by
  unfold rowLine
  split
  · exact ht _
  · simp

theorem coefs_cr {t : Str} (ht : NoneShort t) (i j : Nat) : (lineCoefs (rowLine (crlf t) i j) : Res (List α)) = lineCoefs (rowLine t i j) := by
  unfold lineCoefs
  rw [fields_cr (rowLine_cr t i j) (row_short ht i j)]

theorem complete_cr (t : Str) (count : Option Nat) (i j : Nat) (row : List α) :
    Complete count (rowLine (crlf t) i j) row ↔ Complete count (rowLine t i j) row := by
  unfold Complete
  rw [contains_cr (rowLine_cr t i j) (by decide) (by decide)]

theorem spin_cr (t : Str) (i j : Nat) (spin : Spin) : Contains (rowLine (crlf t) i j) spin.name ↔ Contains (rowLine t i j) spin.name :=
  contains_cr (rowLine_cr t i j) (by cases spin <;> decide) (by cases spin <;> decide)

theorem announces_cr (t : Str) (i : Nat) (spin : Spin) : Announces (lineAt (crlf t) i) spin ↔ Announces (lineAt t i) spin := by
  cases spin <;> simp only [Announces] <;> rw [contains_cr (lineAt_cr t i) (by decide) (by decide)]
  rw [contains_cr (lineAt_cr t i) (by decide) (by decide)]

section
variable {t : Str} (ht : NoneShort t)
include ht

theorem rowLines_cr (count : Option Nat) (i k : Nat) (vals : Nat → List α) : RowLines (crlf t) count i k vals ↔ RowLines t count i k vals := by
  unfold RowLines
  simp only [complete_cr, coefs_cr ht]

theorem rowAt_cr (count : Option Nat) (i k : Nat) (row : List α) : RowAt (crlf t) count i k row ↔ RowAt t count i k row := by
  unfold RowAt
  simp only [rowLines_cr ht, complete_cr]

theorem badRow_cr (count : Option Nat) (i : Nat) (e : Exn) : BadRowAt α (crlf t) count i e ↔ BadRowAt α t count i e := by
  unfold BadRowAt
  simp only [rowLines_cr ht, complete_cr, coefs_cr ht]

theorem endlessRow_cr (count : Option Nat) (i : Nat) : EndlessRow α (crlf t) count i ↔ EndlessRow α t count i := by
  unfold EndlessRow
  simp only [rowLines_cr ht]

theorem table_cr (spin : Spin) {count : Option Nat} {i : Nat} {rows : List (List α)} {e : Nat} :
    TableAt (crlf t) spin count i rows e ↔ TableAt t spin count i rows e := by
  constructor <;> intro h
  · induction h with
    | last h1 h2 => exact .last ((rowAt_cr ht ..).1 h1) (fun h => h2 ((spin_cr ..).2 h))
    | more h1 h2 _ ih => exact .more ((rowAt_cr ht ..).1 h1) ((spin_cr ..).1 h2) ih
  · induction h with
    | last h1 h2 => exact .last ((rowAt_cr ht ..).2 h1) (fun h => h2 ((spin_cr ..).1 h))
    | more h1 h2 _ ih => exact .more ((rowAt_cr ht ..).2 h1) ((spin_cr ..).2 h2) ih

theorem bad_cr (spin : Spin) {count : Option Nat} {i : Nat} {e : Exn} : BadTable α (crlf t) spin count i e ↔ BadTable α t spin count i e := by
  constructor <;> intro h
  · induction h with
    | here h => exact .here ((badRow_cr ht ..).1 h)
    | later h1 h2 _ ih => exact .later ((rowAt_cr ht ..).1 h1) ((spin_cr ..).1 h2) ih
  · induction h with
    | here h => exact .here ((badRow_cr ht ..).2 h)
    | later h1 h2 _ ih => exact .later ((rowAt_cr ht ..).2 h1) ((spin_cr ..).2 h2) ih

theorem endless_cr (spin : Spin) {count : Option Nat} {i : Nat} : EndlessTable α (crlf t) spin count i ↔ EndlessTable α t spin count i := by
  constructor <;> intro h
  · induction h with
    | here h => exact .here ((endlessRow_cr ht ..).1 h)
    | later h1 h2 _ ih => exact .later ((rowAt_cr ht ..).1 h1) ((spin_cr ..).1 h2) ih
  · induction h with
    | here h => exact .here ((endlessRow_cr ht ..).2 h)
    | later h1 h2 _ ih => exact .later ((rowAt_cr ht ..).2 h1) ((spin_cr ..).2 h2) ih

theorem pun_says {i : Nat} {d d' : Known α} (h : Says t i d d') : Says (crlf t) i d d' := by
  induction h with
  | done h => exact .done ((noLine_crlf ..).2 h)
  | skip h1 h2 _ ih => exact .skip (fun h => h1 ((noLine_crlf ..).1 h)) (fun s h => h2 s ((announces_cr ..).1 h)) ih
  | table h1 h2 h3 h4 _ ih => exact .table (fun h => h1 ((noLine_crlf ..).1 h)) ((announces_cr ..).2 h2) ((table_cr ht _).2 h3) h4 ih

theorem pun_fails {i : Nat} {e : Exn} (h : Fails α t i e) : Fails α (crlf t) i e := by
  induction h with
  | bad h1 h2 h3 => exact .bad (fun h => h1 ((noLine_crlf ..).1 h)) ((announces_cr ..).2 h2) ((bad_cr ht _).2 h3)
  | uneven h1 h2 h3 h4 => exact .uneven (fun h => h1 ((noLine_crlf ..).1 h)) ((announces_cr ..).2 h2) ((table_cr ht _).2 h3) h4
  | skip h1 h2 _ ih => exact .skip (fun h => h1 ((noLine_crlf ..).1 h)) (fun s h => h2 s ((announces_cr ..).1 h)) ih
  | table h1 h2 h3 h4 _ ih => exact .table (fun h => h1 ((noLine_crlf ..).1 h)) ((announces_cr ..).2 h2) ((table_cr ht _).2 h3) h4 ih

theorem pun_endless {i : Nat} (h : Endless α t i) : Endless α (crlf t) i := by
  induction h with
  | here h1 h2 h3 => exact .here (fun h => h1 ((noLine_crlf ..).1 h)) ((announces_cr ..).2 h2) ((endless_cr ht _).2 h3)
  | skip h1 h2 _ ih => exact .skip (fun h => h1 ((noLine_crlf ..).1 h)) (fun s h => h2 s ((announces_cr ..).1 h)) ih
  | table h1 h2 h3 h4 _ ih => exact .table (fun h => h1 ((noLine_crlf ..).1 h)) ((announces_cr ..).2 h2) ((table_cr ht _).2 h3) h4 ih

end

end Verif.Crlf
