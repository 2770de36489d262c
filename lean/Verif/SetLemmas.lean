import Verif.Maps
/-
Sets of strings and maps with strings as keys are sorted.
-/
namespace Verif.Readers

/-! ### sets of strings -/

theorem strLt_irrefl (s : Str) : strLt s s = false := by
  induction s with
  | nil => rfl
  | cons c s ih => simp [strLt, ih]

theorem strLt_trans {a b c : Str} (h1 : strLt a b = true) (h2 : strLt b c = true) : strLt a c = true := by
  induction a generalizing b c with
  | nil =>
    cases b with
    | nil => simp [strLt] at h1
    | cons y b => cases c with
      | nil => simp [strLt] at h2
      | cons z c => rfl
  | cons x a ih =>
    cases b with
    | nil => simp [strLt] at h1
    | cons y b => cases c with
      | nil => simp [strLt] at h2
      | cons z c =>
        unfold strLt at h1 h2 ⊢
        split at h1
        · split at h2
          · rw [if_pos (by omega)]
          · split at h2
            · cases h2
            · rw [if_pos (by omega)]
        · split at h1
          · cases h1
          · split at h2
            · rw [if_pos (by omega)]
            · split at h2
              · cases h2
              · rw [if_neg (by omega), if_neg (by omega)]
                exact ih h1 h2

theorem strLt_total {a b : Str} (h : a ≠ b) (h1 : strLt a b = false) : strLt b a = true := by
  induction a generalizing b with
  | nil => cases b with
    | nil => exact absurd rfl h
    | cons y b => simp [strLt] at h1
  | cons x a ih => cases b with
    | nil => rfl
    | cons y b =>
      unfold strLt at h1 ⊢
      split at h1
      · cases h1
      · split at h1
        · rw [if_pos (by omega)]
        · have hxy : x = y := Char.ext (by
            have : x.toNat = y.toNat := by omega
            exact UInt32.toNat_inj.1 this)
          subst hxy
          rw [if_neg (by omega), if_neg (by omega)]
          exact ih (by rintro rfl; exact h rfl) h1

def SortedSet (s : List Str) : Prop := s.Pairwise (fun a b => strLt a b = true)

theorem insert_mem {k : Str} {s : List Str} (hs : SortedSet s) (h : k ∈ s) : strSetInsert k s = s := by
  induction s with
  | nil => cases h
  | cons a s ih =>
    obtain ⟨h1, h2⟩ := List.pairwise_cons.1 hs
    unfold strSetInsert
    split
    · rfl
    · rename_i hne
      have hk : k ∈ s := by rcases List.mem_cons.1 h with h | h; exact absurd h hne; exact h
      have hlt := h1 k hk
      rw [if_neg, ih h2 hk]
      intro hc
      have := strLt_trans hlt hc
      rw [strLt_irrefl] at this
      cases this

theorem insert_not_mem {k : Str} {s : List Str} (h : k ∉ s) : (strSetInsert k s).length = s.length + 1 := by
  induction s with
  | nil => rfl
  | cons a s ih =>
    unfold strSetInsert
    rw [if_neg (by rintro rfl; simp at h)]
    split
    · simp
    · simp [ih (by intro hm; exact h (by simp [hm]))]

theorem insert_sorted {k : Str} {s : List Str} (hs : SortedSet s) : SortedSet (strSetInsert k s) := by
  induction s with
  | nil => exact List.pairwise_singleton _ _
  | cons a s ih =>
    obtain ⟨h1, h2⟩ := List.pairwise_cons.1 hs
    unfold strSetInsert
    split
    · exact hs
    · rename_i hne
      split
      · rename_i hlt
        refine List.pairwise_cons.2 ⟨fun x hx => ?_, hs⟩
        rcases List.mem_cons.1 hx with rfl | hx
        · exact hlt
        · exact strLt_trans hlt (h1 x hx)
      · rename_i hlt
        refine List.pairwise_cons.2 ⟨fun x hx => ?_, ih h2⟩
        rcases mem_strSetInsert.1 hx with rfl | hx
        · exact strLt_total hne (by simpa using hlt)
        · exact h1 x hx

theorem sorted_nodup {s : List Str} (h : SortedSet s) : s.Nodup :=
  h.imp (fun {a b} hab => by rintro rfl; rw [strLt_irrefl] at hab; cases hab)

end Verif.Readers

namespace Verif.Map
open Readers
variable {V : Type}

theorem set_keys (m : Map V) (k : Str) (v : V) : (m.set k v).map (·.1) = strSetInsert k (m.map (·.1)) := by
  induction m with
  | nil => rfl
  | cons p m ih =>
    obtain ⟨k', v'⟩ := p
    simp only [Map.set, List.map_cons, strSetInsert]
    split
    · rename_i e; subst e; rfl
    · split
      · rfl
      · rw [List.map_cons, ih]

theorem get_of_mem {m : Map V} (nd : (m.map (·.1)).Nodup) {x : Str × V} (h : x ∈ m) : m.get x.1 = some x.2 := by
  induction m with
  | nil => cases h
  | cons y ys ih =>
    simp only [List.map_cons, List.nodup_cons] at nd
    rcases List.mem_cons.1 h with rfl | h
    · simp [Map.get]
    · have hne : y.1 ≠ x.1 := fun e => nd.1 (e ▸ List.mem_map_of_mem h)
      have := ih nd.2 h
      simp only [Map.get]
      rw [if_neg (Ne.symm hne)]
      exact this

end Verif.Map
