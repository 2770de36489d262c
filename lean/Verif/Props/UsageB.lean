import Verif.Props.Usage
/-
C85 for every parser: when the help text ends, and which words it then has.
-/
namespace Verif.Args
open Strings

/-- `W` is the length of the longest abbreviation among the declared flags and `-h`. -/
def LongestAbbrev (flags : List (List Str)) (W : Nat) : Prop :=
  (∃ f, (f ∈ flags ∨ f = helpFlag) ∧ ∃ i ∈ f, isAbbrev (trimmed i) = true ∧ (trimmed i).length = W) ∧
  ∀ f, f ∈ flags ∨ f = helpFlag → ∀ i ∈ f, isAbbrev (trimmed i) = true → (trimmed i).length ≤ W

theorem LongestAbbrev.eq {flags : List (List Str)} {W : Nat} (h : LongestAbbrev flags W) : (flagSizes flags).2 = W := by
  obtain ⟨⟨f, hf, i, hi, hk, hW⟩, hall⟩ := h
  have h1 : W ≤ (flagSizes flags).2 := by
    rw [flagSizes_flat, ← hW]
    exact (sizes_self (List.mem_flatMap.2 ⟨f, mem_vecSetInsert.2 hf.symm, hi⟩) _).2 hk
  have h2 : 2 ≤ W := hall helpFlag (Or.inr rfl) (lit "-h") (by decide) (by decide)
  have := flagSizes_short h2 (fun f hf => hall f (Or.inl hf))
  omega

/-- Padding, for all sizes. -/
theorem padding_cases {width size : Nat} (hw : width < 2 ^ 63) (hs : size < 2 ^ 63) :
    (size = width + 1 → padding width size = .diverge) ∧
    (size ≠ width + 1 → ∃ n, padding width size = .ok (List.replicate (n + 1) ' ')) := by
  constructor
  · intro e
    have : toSize ((width : Int) - size) = 2 ^ 64 - 1 := by unfold toSize; omega
    unfold padding
    simp only [this]
    rfl
  · intro e
    have : toSize ((width : Int) - size) ≠ 2 ^ 64 - 1 := by unfold toSize; omega
    unfold padding
    simp only
    rw [if_neg this]
    exact ⟨_, rfl⟩

theorem usage_words {flags : Map (Str × Str)} {sizes : Nat × Nat} (h : ∀ f ∈ flags, f.1.length ≤ sizes.1 ∧ f.2.1.length < 2 ^ 63 ∧ f.2.1.length ≠ sizes.2 + 1)
    (hs : sizes.1 < 2 ^ 63 ∧ sizes.2 < 2 ^ 63) :
    ∃ t, showUsage flags sizes = .ok ((lit "\n\nOptions:\n\n") ++ t ++ (lit "\n")) ∧
      splitSt (t ++ (lit "\n")) = flags.flatMap (fun f => splitSt f.1 ++ splitSt f.2.1 ++ splitSt f.2.2) := by
  have : ∀ (out : Str), ∃ t, flags.foldlM (usageItem sizes) out = .ok (out ++ t) ∧
      splitSt (t ++ (lit "\n")) = flags.flatMap (fun f => splitSt f.1 ++ splitSt f.2.1 ++ splitSt f.2.2) := by
    induction flags with
    | nil => intro out; exact ⟨[], by simp, rfl⟩
    | cons f flags ih =>
      intro out
      obtain ⟨h1, h2, h3⟩ := h f (by simp)
      obtain ⟨n, e2⟩ := (padding_cases hs.2 h2).2 h3
      rw [List.foldlM_cons]
      have e : usageItem sizes out f = .ok (out ++ (f.1 ++ (List.replicate (sizes.1 - f.1.length + 1) ' ' ++ (f.2.1 ++ (List.replicate (n + 1) ' ' ++
          (wrapWords (toSize (80 - ((sizes.1 + sizes.2 + 2 : Nat) : Int))) (sizes.1 + sizes.2 + 2) 0 (splitSt f.2.2) ++ (lit "\n\n"))))))) := by
        unfold usageItem
        rw [padding_ok h1 hs.1, e2, Res.ok_bind, Res.ok_bind]
        simp only [List.append_assoc]
      rw [e, Res.ok_bind]
      obtain ⟨t, ht, hw⟩ := ih (fun g hg => h g (by simp [hg])) _
      refine ⟨_, by rw [ht, List.append_assoc], ?_⟩
      simp only [List.append_assoc, List.flatMap_cons]
      rw [splitSt_sep f.1 _ (by simp) (isSpace_replicate _), splitSt_sep f.2.1 _ (by simp) (isSpace_replicate _),
        splitSt_sep _ _ (by simp) (by decide), splitSt_wrapWords _ _ _ (splitSt_words _), hw]
      simp only [List.append_assoc]
  obtain ⟨t, e, hw⟩ := this (lit "\n\nOptions:\n\n")
  exact ⟨t, by unfold showUsage; rw [e, Res.ok_bind], hw⟩

/-- C85 (every parser): printing the help text never ends exactly if some flag has no abbreviation and the longest abbreviation (`-h`
included) has 22 characters. Otherwise it ends, and the text consists of exactly the following words: `Options:`, and for every flag, in
order, its full name, its abbreviation (`NO_SHORT_FLAG_SPECIFIED` if it has none) and the words of its description. -/
theorem C85_always {D : Type} {flags : List (List Str)} {p : Parser D} (hp : newParser flags = .ok p)
    (hfit : ∀ f ∈ flags, ∀ i ∈ f, Fits i) {W : Nat} (hW : LongestAbbrev flags W) :
    ((W = 22 ∧ ∃ x desc, (x, registered none desc) ∈ p.flags) → showUsage p.flags (flagSizes flags) = .diverge) ∧
    (¬ (W = 22 ∧ ∃ x desc, (x, registered none desc) ∈ p.flags) → ∃ text, showUsage p.flags (flagSizes flags) = .ok text ∧
      splitSt text = (lit "Options:") :: p.flags.flatMap (fun f => splitSt f.1 ++ splitSt f.2.1 ++ splitSt f.2.2)) := by
  have hs := declared_fits hfit
  have e := hW.eq
  constructor
  · rintro ⟨h22, x, desc, hm⟩
    refine (usage_item_in hm).1 ?_
    have e2 : padding (flagSizes flags).2 ((registered none desc).1 : Str).length = .diverge := by
      rw [e, h22]; rfl
    unfold usageItem
    simp only [e2]
    unfold padding
    simp only
    split <;> rfl
  · intro hn
    have key : ∀ f ∈ p.flags, f.1.length ≤ (flagSizes flags).1 ∧ f.2.1.length < 2 ^ 63 ∧ f.2.1.length ≠ (flagSizes flags).2 + 1 := by
      intro x hx
      rcases addFlags_mem hp x hx with hl | ⟨f, hf, short, desc, hd, ex⟩
      · cases hl
      · obtain ⟨h1, h2⟩ := declared_width (mem_vecSetInsert.1 hf).symm hd
        refine ⟨h1, ?_⟩
        cases short with
        | some s =>
          have := h2 s rfl
          rw [ex]
          show s.length < 2 ^ 63 ∧ s.length ≠ _
          exact ⟨by omega, by omega⟩
        | none =>
          have hl : x.2.1.length = 23 := by rw [ex]; rfl
          refine ⟨by omega, fun h => hn ⟨by omega, x.1, desc, ?_⟩⟩
          rw [← ex]; exact hx
    obtain ⟨t, h1, h2⟩ := usage_words key hs
    refine ⟨_, h1, ?_⟩
    rw [List.append_assoc, show (lit "\n\nOptions:\n\n") = (lit "\n\nOptions:") ++ (lit "\n\n") by rfl, List.append_assoc,
      splitSt_sep _ _ (by simp) (by decide), h2]
    rfl

/-- A flag without abbreviation: the longest abbreviation is `-h`, so the text ends. -/
example : LongestAbbrev [[(lit "--name")]] 2 := by
  refine ⟨⟨helpFlag, Or.inr rfl, (lit "-h"), by decide, by decide, rfl⟩, ?_⟩
  rintro f (hf | rfl) i hi hk
  · rw [List.mem_singleton] at hf; subst hf
    rw [List.mem_singleton] at hi; subst hi
    exact absurd hk (by decide)
  · have : ∀ i ∈ helpFlag, isAbbrev (trimmed i) = true → (trimmed i).length ≤ 2 := by decide
    exact this i hi hk

end Verif.Args
