import Verif.Usage
import Verif.Spec.Usage
import Verif.Spec.Strings
import Verif.StringLemmas
import Verif.IO
import Verif.Props.Strings
import Mathlib.Tactic.ByContra
/-
C85: the help text. C86: the flags a parser is built from.
-/
namespace Verif.Args
open Strings

/-! ### C86: the constructor -/

theorem flagItem_eq (d : Map Bool) (l : FlagLocals) (item : Str) :
    flagItem (d, l) item =
      (if isFullName (trimmed item) then
        match l.full with
        | some _ => Res.throw .invalidArgument
        | none => .ok (d.set (trimmed item) false, { l with full := some (trimmed item) })
      else if isAbbrev (trimmed item) then
        match l.short with
        | some _ => Res.throw .invalidArgument
        | none => .ok (d, { l with short := some (trimmed item) })
      else
        match l.desc with
        | some _ => Res.throw .invalidArgument
        | none => .ok (d, { l with desc := some (trimmed item) })) := by
  unfold flagItem
  have e1 : firstN (trimmed item) 1 = .ok ((trimmed item).take 1) := by
    unfold firstN; rw [substr_ok (by omega), show toSize 1 = 1 by decide]; rfl
  have e2 : firstN (trimmed item) 2 = .ok ((trimmed item).take 2) := by
    unfold firstN; rw [substr_ok (by omega), show toSize 2 = 2 by decide]; rfl
  simp only [e1, e2, Res.ok_bind, isFullName, isAbbrev]
  by_cases h2 : (trimmed item).take 2 = (lit "--")
  · simp [h2]; cases l.full <;> rfl
  · by_cases h1 : (trimmed item).take 1 = (lit "-")
    · simp [h1, h2]; cases l.short <;> rfl
    · simp [h1, h2]; cases l.desc <;> rfl

/-- The items of a declaration by kind, after those already seen. -/
structure Collected (l l' : FlagLocals) (items : List Str) : Prop where
  full : l'.full.toList = l.full.toList ++ (items.map trimmed).filter isFullName
  short : l'.short.toList = l.short.toList ++ (items.map trimmed).filter isAbbrev
  desc : l'.desc.toList = l.desc.toList ++ (items.map trimmed).filter isDescription

theorem kinds (s : Str) : (isFullName s = true ∧ isAbbrev s = false ∧ isDescription s = false) ∨
    (isFullName s = false ∧ isAbbrev s = true ∧ isDescription s = false) ∨
    (isFullName s = false ∧ isAbbrev s = false ∧ isDescription s = true) := by
  unfold isDescription isAbbrev
  cases isFullName s <;> simp [Classical.em]

theorem flagItems_ok {items : List Str} {d d' : Map Bool} {l l' : FlagLocals} (h : items.foldlM flagItem (d, l) = .ok (d', l')) :
    Collected l l' items := by
  induction items generalizing d l with
  | nil => cases h; exact ⟨by simp, by simp, by simp⟩
  | cons x items ih =>
    rw [List.foldlM_cons, flagItem_eq] at h
    rcases kinds (trimmed x) with ⟨k1, k2, k3⟩ | ⟨k1, k2, k3⟩ | ⟨k1, k2, k3⟩
    · simp only [k1, if_true] at h
      cases hf : l.full with
      | some _ => rw [hf] at h; cases h
      | none =>
        rw [hf] at h
        obtain ⟨a, b, c⟩ := ih h
        exact ⟨by simpa [k1, hf] using a, by simpa [k2] using b, by simpa [k3] using c⟩
    · simp only [k1, k2, if_true, Bool.false_eq_true, if_false] at h
      cases hf : l.short with
      | some _ => rw [hf] at h; cases h
      | none =>
        rw [hf] at h
        obtain ⟨a, b, c⟩ := ih h
        exact ⟨by simpa [k1] using a, by simpa [k2, hf] using b, by simpa [k3] using c⟩
    · simp only [k1, k2, Bool.false_eq_true, if_false] at h
      cases hf : l.desc with
      | some _ => rw [hf] at h; cases h
      | none =>
        rw [hf] at h
        obtain ⟨a, b, c⟩ := ih h
        exact ⟨by simpa [k1] using a, by simpa [k2] using b, by simpa [k3, hf] using c⟩

theorem flagItems_total (items : List Str) (d : Map Bool) (l : FlagLocals) :
    (∃ d' l', items.foldlM flagItem (d, l) = .ok (d', l')) ∨ items.foldlM flagItem (d, l) = .throw .invalidArgument := by
  induction items generalizing d l with
  | nil => exact Or.inl ⟨d, l, rfl⟩
  | cons x items ih =>
    rw [List.foldlM_cons, flagItem_eq]
    split
    · split
      · exact Or.inr rfl
      · exact ih _ _
    · split
      · split
        · exact Or.inr rfl
        · exact ih _ _
      · split
        · exact Or.inr rfl
        · exact ih _ _

theorem flagItems_accept {items : List Str} {d : Map Bool} {l : FlagLocals}
    (h1 : (l.full.toList ++ (items.map trimmed).filter isFullName).length ≤ 1)
    (h2 : (l.short.toList ++ (items.map trimmed).filter isAbbrev).length ≤ 1)
    (h3 : (l.desc.toList ++ (items.map trimmed).filter isDescription).length ≤ 1) :
    ∃ d' l', items.foldlM flagItem (d, l) = .ok (d', l') := by
  induction items generalizing d l with
  | nil => exact ⟨d, l, rfl⟩
  | cons x items ih =>
    rw [List.foldlM_cons, flagItem_eq]
    rcases kinds (trimmed x) with ⟨k1, k2, k3⟩ | ⟨k1, k2, k3⟩ | ⟨k1, k2, k3⟩
    · simp only [k1, if_true]
      cases hf : l.full with
      | some _ => simp [hf, k1] at h1
      | none =>
        refine ih ?_ ?_ ?_
        · simpa [k1, hf] using h1
        · simpa [k2] using h2
        · simpa [k3] using h3
    · simp only [k1, k2, if_true, Bool.false_eq_true, if_false]
      cases hf : l.short with
      | some _ => simp [hf, k2] at h2
      | none =>
        refine ih ?_ ?_ ?_
        · simpa [k1] using h1
        · simpa [k2, hf] using h2
        · simpa [k3] using h3
    · simp only [k1, k2, Bool.false_eq_true, if_false]
      cases hf : l.desc with
      | some _ => simp [hf, k3] at h3
      | none =>
        refine ih ?_ ?_ ?_
        · simpa [k1] using h1
        · simpa [k2] using h2
        · simpa [k3, hf] using h3

theorem toList_length {α : Type} (o : Option α) : o.toList.length ≤ 1 := by cases o <;> simp

theorem toList_inj {α : Type} {a b : Option α} (h : a.toList = b.toList) : a = b := by
  cases a <;> cases b <;> simp_all

section
variable {D : Type}

theorem addFlag_good {flag : List Str} {full : Str} {short desc : Option Str} (h3 : flag.length ≤ 3)
    (h : Declares flag full short desc) (p : Parser D) :
    ∃ p', addFlag p flag = .ok p' ∧ p'.flags = p.flags.set full (registered short desc) := by
  obtain ⟨d', l', e⟩ := flagItems_accept (items := flag) (d := p.defaultsSet) (l := ⟨none, none, none⟩)
    (by rw [h.full]; simp) (by rw [h.short]; simp) (by rw [h.desc]; simp)
  obtain ⟨a, b, c⟩ := flagItems_ok e
  rw [h.full] at a; rw [h.short] at b; rw [h.desc] at c
  have a' : l'.full = some full := toList_inj (by simpa using a)
  have b' : l'.short = short := toList_inj (by simpa using b)
  have c' : l'.desc = desc := toList_inj (by simpa using c)
  unfold addFlag
  rw [if_neg (by omega), e, Res.ok_bind]
  simp only [a', b', c']
  exact ⟨_, rfl, rfl⟩

theorem addFlag_ok {flag : List Str} {p p' : Parser D} (h : addFlag p flag = .ok p') : GoodFlag flag := by
  unfold addFlag at h
  split at h
  · cases h
  · rename_i hl
    obtain ⟨⟨d', l'⟩, e, h⟩ := Res.bind_eq_ok.1 h
    obtain ⟨a, b, c⟩ := flagItems_ok e
    simp only at h
    split at h
    · cases h
    · rename_i full hfull
      rw [hfull] at a
      exact ⟨by omega, full, l'.short, l'.desc, ⟨by simpa using a.symm, by simpa using b.symm, by simpa using c.symm⟩⟩

theorem addFlag_total (flag : List Str) (p : Parser D) :
    (∃ p', addFlag p flag = .ok p') ∨ addFlag p flag = .throw .invalidArgument := by
  unfold addFlag
  split
  · exact Or.inr rfl
  · rcases flagItems_total flag p.defaultsSet ⟨none, none, none⟩ with ⟨d', l', e⟩ | e
    · rw [e, Res.ok_bind]
      simp only
      split
      · exact Or.inr rfl
      · exact Or.inl ⟨_, rfl⟩
    · rw [e]; exact Or.inr rfl

theorem Declares.unique {flag : List Str} {f f' : Str} {s s' d d' : Option Str} (h : Declares flag f s d) (h' : Declares flag f' s' d') :
    f = f' ∧ s = s' ∧ d = d' :=
  ⟨by have := h.full.symm.trans h'.full; simpa using this, toList_inj (h.short.symm.trans h'.short), toList_inj (h.desc.symm.trans h'.desc)⟩

theorem mem_vecSetInsert {k x : List Str} {l : List (List Str)} : x ∈ vecSetInsert k l ↔ x = k ∨ x ∈ l := by
  induction l with
  | nil => simp [vecSetInsert]
  | cons k' l ih =>
    unfold vecSetInsert
    split
    · rename_i h; subst h; simp
    · split
      · simp
      · simp [ih]; constructor
        · rintro (h | h | h) <;> simp [h]
        · rintro (h | h | h) <;> simp [h]

theorem help_declares : Declares helpFlag (lit "--help") (some (lit "-h")) (some (lit "Display help message")) := by
  exact ⟨by decide, by decide, by decide⟩

theorem addFlags_good (flags : List (List Str)) (h : ∀ f ∈ flags, GoodFlag f) (p : Parser D) : ∃ p', flags.foldlM addFlag p = .ok p' := by
  induction flags generalizing p with
  | nil => exact ⟨p, rfl⟩
  | cons f flags ih =>
    obtain ⟨h3, full, short, desc, hd⟩ := h f (by simp)
    obtain ⟨p', e, -⟩ := addFlag_good h3 hd p
    rw [List.foldlM_cons, e, Res.ok_bind]
    exact ih (fun g hg => h g (by simp [hg])) p'

theorem addFlags_ok {flags : List (List Str)} {p p' : Parser D} (h : flags.foldlM addFlag p = .ok p') : ∀ f ∈ flags, GoodFlag f := by
  induction flags generalizing p with
  | nil => simp
  | cons f flags ih =>
    rw [List.foldlM_cons] at h
    obtain ⟨p1, e, h⟩ := Res.bind_eq_ok.1 h
    intro g hg
    rcases List.mem_cons.1 hg with rfl | hg
    · exact addFlag_ok e
    · exact ih h g hg

theorem addFlags_total (flags : List (List Str)) (p : Parser D) :
    (∃ p', flags.foldlM addFlag p = .ok p') ∨ flags.foldlM addFlag p = .throw .invalidArgument := by
  induction flags generalizing p with
  | nil => exact Or.inl ⟨p, rfl⟩
  | cons f flags ih =>
    rw [List.foldlM_cons]
    rcases addFlag_total f p with ⟨p1, e⟩ | e
    · rw [e]; exact ih p1
    · rw [e]; exact Or.inr rfl

/-- C86 (accepted declarations): the constructor accepts the flags exactly if each has at most three items, exactly one of them a
full name, at most one an abbreviation and at most one a description; otherwise it throws `invalid_argument`. -/
theorem C86_accepts (flags : List (List Str)) : (∃ p : Parser D, newParser flags = .ok p) ↔ ∀ f ∈ flags, GoodFlag f := by
  unfold newParser
  constructor
  · rintro ⟨p, h⟩ f hf
    exact addFlags_ok h f (mem_vecSetInsert.2 (Or.inr hf))
  · intro h
    refine addFlags_good _ (fun f hf => ?_) _
    rcases mem_vecSetInsert.1 hf with rfl | hf
    · exact ⟨by decide, _, _, _, help_declares⟩
    · exact h f hf

theorem C86_rejects {flags : List (List Str)} (h : ∃ f ∈ flags, ¬ GoodFlag f) :
    newParser (D := D) flags = .throw .invalidArgument := by
  rcases addFlags_total (D := D) (vecSetInsert helpFlag flags) Parser.empty with e | e
  · obtain ⟨f, hf, hg⟩ := h
    exact absurd ((C86_accepts (D := D) flags).1 e f hf) hg
  · exact e

theorem addFlags_flags {flags : List (List Str)} {p p' : Parser D} (h : flags.foldlM addFlag p = .ok p') (x : Str) (v : Str × Str)
    (hx : p'.flags.get x = some v) :
    p.flags.get x = some v ∨ ∃ f ∈ flags, ∃ short desc, Declares f x short desc ∧ v = registered short desc := by
  induction flags generalizing p with
  | nil => cases h; exact Or.inl hx
  | cons f flags ih =>
    rw [List.foldlM_cons] at h
    obtain ⟨p1, e, h⟩ := Res.bind_eq_ok.1 h
    obtain ⟨h3, full, short, desc, hd⟩ := addFlag_ok e
    obtain ⟨p1', e1, e2⟩ := addFlag_good h3 hd p
    rw [e] at e1; cases e1
    rcases ih h with hl | ⟨g, hg, s, d, hs⟩
    · rw [e2, Map.get_set] at hl
      split at hl
      · rename_i hxf
        subst hxf
        exact Or.inr ⟨f, by simp, short, desc, hd, (Option.some.inj hl).symm⟩
      · exact Or.inl hl
    · exact Or.inr ⟨g, by simp [hg], s, d, hs⟩

theorem addFlags_get {flags : List (List Str)} {p p' : Parser D} (h : flags.foldlM addFlag p = .ok p') {f : List Str} {x : Str}
    {short desc : Option Str} (hd : Declares f x short desc)
    (huniq : ∀ g ∈ flags, ∀ s d, Declares g x s d → s = short ∧ d = desc)
    (hm : f ∈ flags ∨ p.flags.get x = some (registered short desc)) :
    p'.flags.get x = some (registered short desc) := by
  induction flags generalizing p with
  | nil =>
    cases h
    rcases hm with hm | hm
    · cases hm
    · exact hm
  | cons g flags ih =>
    rw [List.foldlM_cons] at h
    obtain ⟨p1, e, h⟩ := Res.bind_eq_ok.1 h
    obtain ⟨h3, full, s, d, hg⟩ := addFlag_ok e
    obtain ⟨p1', e1, e2⟩ := addFlag_good h3 hg p
    rw [e] at e1; cases e1
    refine ih h (fun g' hg' => huniq g' (by simp [hg'])) ?_
    by_cases hf : f ∈ flags
    · exact Or.inl hf
    · refine Or.inr ?_
      rw [e2, Map.get_set]
      split
      · rename_i hx
        subst hx
        obtain ⟨rfl, rfl⟩ := huniq g (by simp) s d hg
        rfl
      · rename_i hx
        rcases hm with hm | hm
        · rcases List.mem_cons.1 hm with rfl | hm
          · exact absurd (hd.unique hg).1 hx
          · exact absurd hm hf
        · exact hm

/-- C86 (nothing else): every flag the parser knows was declared, with the abbreviation and description it has, or is `--help`. -/
theorem C86_only_declared {flags : List (List Str)} {p : Parser D} (h : newParser flags = .ok p) {x : Str} {v : Str × Str}
    (hx : p.flags.get x = some v) :
    ∃ f, (f ∈ flags ∨ f = helpFlag) ∧ ∃ short desc, Declares f x short desc ∧ v = registered short desc := by
  rcases addFlags_flags h x v hx with hl | ⟨f, hf, hh⟩
  · cases hl
  · exact ⟨f, (mem_vecSetInsert.1 hf).symm, hh⟩

/-- C86 (registered): a declared flag is known with its abbreviation and description, whatever the order of the items, provided no
other declaration of the same full name differs from it. -/
theorem C86_registered {flags : List (List Str)} {p : Parser D} (h : newParser flags = .ok p) {f : List Str} {x : Str}
    {short desc : Option Str} (hf : f ∈ flags) (hd : Declares f x short desc)
    (huniq : ∀ g, g ∈ flags ∨ g = helpFlag → ∀ s d, Declares g x s d → s = short ∧ d = desc) :
    p.flags.get x = some (registered short desc) :=
  addFlags_get h hd (fun g hg => huniq g (mem_vecSetInsert.1 hg).symm) (Or.inl (mem_vecSetInsert.2 (Or.inr hf)))

end

/-- The hypotheses are met: items in any order, with surrounding blanks; a flag without abbreviation. -/
def someFlags : List (List Str) :=
  [[(lit " how many "), (lit "--number"), (lit "-n")], [(lit "--quiet")]]
example : Declares [(lit " how many "), (lit "--number"), (lit "-n")] (lit "--number") (some (lit "-n")) (some (lit "how many")) :=
  ⟨by decide, by decide, by decide⟩
example : ∀ f ∈ someFlags, GoodFlag f := by
  intro f hf
  simp only [someFlags, List.mem_cons, List.not_mem_nil, or_false] at hf
  rcases hf with rfl | rfl
  · exact ⟨by decide, (lit "--number"), some (lit "-n"), some (lit "how many"), by decide, by decide, by decide⟩
  · exact ⟨by decide, (lit "--quiet"), none, none, by decide, by decide, by decide⟩
example : ¬ GoodFlag [(lit "-n"), (lit "number")] := by
  rintro ⟨-, f, s, d, h⟩
  have := h.full
  revert this
  rw [show ([(lit "-n"), (lit "number")].map trimmed).filter isFullName = [] by decide]
  simp
example : (newParser (D := Unit) someFlags).bind (fun p => .ok (p.flags.map (·.1))) =
    .ok [(lit "--help"), (lit "--number"), (lit "--quiet")] := by decide


/-! ### C85: the help text -/

theorem tokens_sep (a : Str) (c : Char) (b acc : Str) (hc : isSpace c = true) : tokens acc (a ++ c :: b) = tokens acc a ++ tokens [] b := by
  induction a generalizing acc with
  | nil =>
    rw [List.nil_append]
    conv => lhs; rw [tokens, if_pos hc]
    rw [tokens]
    split <;> simp
  | cons x a ih =>
    rw [List.cons_append, tokens, tokens]
    split
    · split
      · exact ih []
      · rw [ih []]; rfl
    · exact ih _

theorem splitSt_sep (a : Str) {sp : Str} (b : Str) (hs : sp ≠ []) (h : ∀ c ∈ sp, isSpace c = true) :
    splitSt (a ++ (sp ++ b)) = splitSt a ++ splitSt b := by
  cases sp with
  | nil => exact absurd rfl hs
  | cons c sp =>
    rw [splitSt_eq, splitSt_eq, splitSt_eq, List.cons_append, tokens_sep a c _ _ (h c (by simp)),
      tokens_space sp (fun x hx => h x (by simp [hx]))]

theorem splitSt_blank {sp : Str} (b : Str) (h : ∀ c ∈ sp, isSpace c = true) : splitSt (sp ++ b) = splitSt b := by
  rw [splitSt_eq, splitSt_eq, tokens_space sp h]

theorem splitSt_word {w : Str} (h : w ≠ []) (hw : ∀ c ∈ w, isSpace c = false) : splitSt w = [w] := by
  have := tokens_of_pieces [([], w)] [] (by simpa using ⟨h, hw⟩) (by simp) (by simp)
  rw [splitSt_eq]
  simpa using this

theorem isSpace_replicate (n : Nat) : ∀ c ∈ List.replicate n ' ', isSpace c = true := by
  intro c hc
  rw [(List.mem_replicate.1 hc).2]; decide

theorem splitSt_wrapWords (allowed space : Nat) (ws : List Str) (h : ∀ w ∈ ws, w ≠ [] ∧ ∀ c ∈ w, isSpace c = false) (used : Nat) :
    splitSt (wrapWords allowed space used ws) = ws := by
  induction ws generalizing used with
  | nil => rfl
  | cons w ws ih =>
    obtain ⟨hw, hws⟩ := h w (by simp)
    have key : ∀ n, splitSt (w ++ (lit " ") ++ wrapWords allowed space n ws) = w :: ws := by
      intro n
      rw [List.append_assoc, splitSt_sep w _ (by simp) (by decide), splitSt_word hw hws, ih (fun x hx => h x (by simp [hx]))]
      rfl
    unfold wrapWords
    simp only
    split
    · exact key _
    · rw [List.append_assoc, List.append_assoc, List.append_assoc, splitSt_blank _ (by decide), splitSt_blank _ (isSpace_replicate space),
        ← List.append_assoc, key]

theorem splitSt_words (s : Str) : ∀ w ∈ splitSt s, w ≠ [] ∧ ∀ c ∈ w, isSpace c = false := by
  obtain ⟨ps, trail, -, e, h, -, -⟩ := (layout_splitSt s).exists_pieces
  rw [e]
  intro w hw
  obtain ⟨p, hp, rfl⟩ := List.mem_map.1 hw
  exact (h p hp).2

theorem padding_ok {width size : Nat} (h : size ≤ width) (hw : width < 2 ^ 63) :
    padding width size = .ok (List.replicate (width - size + 1) ' ') := by
  have e : toSize ((width : Int) - size) = width - size := by
    unfold toSize
    rw [Int.emod_eq_of_lt (by omega) (by omega)]
    omega
  unfold padding
  simp only [e]
  rw [if_neg (by omega)]

/-- The block printed for one flag when its names fit their columns. -/
def usageBlock (sizes : Nat × Nat) (item : Str × (Str × Str)) : Str :=
  item.1 ++ List.replicate (sizes.1 - item.1.length + 1) ' ' ++ item.2.1 ++ List.replicate (sizes.2 - item.2.1.length + 1) ' ' ++
    wrapWords (toSize (80 - ((sizes.1 + sizes.2 + 2 : Nat) : Int))) (sizes.1 + sizes.2 + 2) 0 (splitSt item.2.2) ++ (lit "\n\n")

theorem usageItem_ok {sizes : Nat × Nat} {item : Str × (Str × Str)} (h1 : item.1.length ≤ sizes.1) (h2 : item.2.1.length ≤ sizes.2)
    (hs : sizes.1 < 2 ^ 63 ∧ sizes.2 < 2 ^ 63) (out : Str) : usageItem sizes out item = .ok (out ++ usageBlock sizes item) := by
  unfold usageItem usageBlock
  rw [padding_ok h1 hs.1, padding_ok h2 hs.2, Res.ok_bind, Res.ok_bind]
  simp only [List.append_assoc]

theorem showUsage_ok {flags : Map (Str × Str)} {sizes : Nat × Nat} (h : ∀ f ∈ flags, f.1.length ≤ sizes.1 ∧ f.2.1.length ≤ sizes.2)
    (hs : sizes.1 < 2 ^ 63 ∧ sizes.2 < 2 ^ 63) :
    showUsage flags sizes = .ok ((lit "\n\nOptions:\n\n") ++ flags.flatMap (usageBlock sizes) ++ (lit "\n")) := by
  have : ∀ (out : Str), flags.foldlM (usageItem sizes) out = .ok (out ++ flags.flatMap (usageBlock sizes)) := by
    induction flags with
    | nil => intro out; simp
    | cons f flags ih =>
      intro out
      rw [List.foldlM_cons, usageItem_ok (h f (by simp)).1 (h f (by simp)).2 hs, Res.ok_bind, ih (fun g hg => h g (by simp [hg]))]
      simp
  unfold showUsage
  rw [this, Res.ok_bind]

theorem splitSt_block (sizes : Nat × Nat) (item : Str × (Str × Str)) (rest : Str) :
    splitSt (usageBlock sizes item ++ rest) = splitSt item.1 ++ splitSt item.2.1 ++ splitSt item.2.2 ++ splitSt rest := by
  unfold usageBlock
  simp only [List.append_assoc]
  rw [splitSt_sep item.1 _ (by simp) (isSpace_replicate _), splitSt_sep item.2.1 _ (by simp) (isSpace_replicate _),
    splitSt_sep _ _ (by simp) (by decide), splitSt_wrapWords _ _ _ (splitSt_words _)]

theorem splitSt_usage (flags : Map (Str × Str)) (sizes : Nat × Nat) :
    splitSt ((lit "\n\nOptions:\n\n") ++ flags.flatMap (usageBlock sizes) ++ (lit "\n")) =
      (lit "Options:") :: flags.flatMap (fun f => splitSt f.1 ++ splitSt f.2.1 ++ splitSt f.2.2) := by
  have : splitSt (flags.flatMap (usageBlock sizes) ++ (lit "\n")) = flags.flatMap (fun f => splitSt f.1 ++ splitSt f.2.1 ++ splitSt f.2.2) := by
    induction flags with
    | nil => rfl
    | cons f flags ih =>
      rw [List.flatMap_cons, List.flatMap_cons, List.append_assoc, splitSt_block, ih]
  rw [List.append_assoc, show (lit "\n\nOptions:\n\n") = (lit "\n\nOptions:") ++ (lit "\n\n") by rfl, List.append_assoc,
    splitSt_sep _ _ (by simp) (by decide), this]
  rfl

theorem sizeItem_mono (m : Nat × Nat) (i : Str) : m.1 ≤ (sizeItem m i).1 ∧ m.2 ≤ (sizeItem m i).2 := by
  unfold sizeItem
  simp only
  split
  · exact ⟨Nat.le_max_left _ _, Nat.le_refl _⟩
  · split
    · exact ⟨Nat.le_refl _, Nat.le_max_left _ _⟩
    · exact ⟨Nat.le_refl _, Nat.le_refl _⟩

theorem sizeItem_self (m : Nat × Nat) (i : Str) : (isFullName (trimmed i) = true → (trimmed i).length ≤ (sizeItem m i).1) ∧
    (isAbbrev (trimmed i) = true → (trimmed i).length ≤ (sizeItem m i).2) := by
  unfold sizeItem isAbbrev isFullName
  simp only
  constructor
  · intro h; rw [if_pos (by simpa using h)]; exact Nat.le_max_right _ _
  · intro h
    simp only [Bool.and_eq_true, Bool.not_eq_true', decide_eq_true_eq, decide_eq_false_iff_not] at h
    rw [if_neg h.2, if_pos h.1]; exact Nat.le_max_right _ _

theorem trimmed_length (s : Str) : (trimmed s).length ≤ s.length := by
  obtain ⟨l, r, e, -⟩ := C45_trim s
  have := congrArg List.length e
  simp only [List.length_append] at this
  omega

theorem sizeItem_bound {m : Nat × Nat} {i : Str} {B : Nat} (hm : m.1 < B ∧ m.2 < B) (hi : i.length < B) : (sizeItem m i).1 < B ∧ (sizeItem m i).2 < B := by
  have := trimmed_length i
  unfold sizeItem
  simp only
  split
  · simp only; omega
  · split
    · simp only; omega
    · exact hm

theorem flagSizes_flat (flags : List (List Str)) : flagSizes flags = ((vecSetInsert helpFlag flags).flatMap id).foldl sizeItem (0, 0) := by
  unfold flagSizes
  rw [List.foldl_flatMap]
  rfl

theorem sizes_mono (items : List Str) (m : Nat × Nat) : m.1 ≤ (items.foldl sizeItem m).1 ∧ m.2 ≤ (items.foldl sizeItem m).2 := by
  induction items generalizing m with
  | nil => exact ⟨Nat.le_refl _, Nat.le_refl _⟩
  | cons i items ih =>
    have h1 := sizeItem_mono m i
    have h2 := ih (sizeItem m i)
    exact ⟨Nat.le_trans h1.1 h2.1, Nat.le_trans h1.2 h2.2⟩

theorem sizes_self {items : List Str} {i : Str} (hi : i ∈ items) (m : Nat × Nat) :
    (isFullName (trimmed i) = true → (trimmed i).length ≤ (items.foldl sizeItem m).1) ∧
    (isAbbrev (trimmed i) = true → (trimmed i).length ≤ (items.foldl sizeItem m).2) := by
  induction items generalizing m with
  | nil => cases hi
  | cons x items ih =>
    rcases List.mem_cons.1 hi with rfl | hi
    · have h1 := sizeItem_self m i
      have h2 := sizes_mono items (sizeItem m i)
      exact ⟨fun h => Nat.le_trans (h1.1 h) h2.1, fun h => Nat.le_trans (h1.2 h) h2.2⟩
    · exact ih hi _

theorem sizes_bound {items : List Str} {B : Nat} (h : ∀ i ∈ items, i.length < B) {m : Nat × Nat} (hm : m.1 < B ∧ m.2 < B) :
    (items.foldl sizeItem m).1 < B ∧ (items.foldl sizeItem m).2 < B := by
  induction items generalizing m with
  | nil => exact hm
  | cons i items ih => exact ih (fun x hx => h x (by simp [hx])) (sizeItem_bound hm (h i (by simp)))

theorem mem_map_set {V : Type} {m : Map V} {k : Str} {v : V} {x : Str × V} (h : x ∈ m.set k v) : x = (k, v) ∨ x ∈ m := by
  induction m with
  | nil => left; simpa [Map.set] using h
  | cons y m ih =>
    unfold Map.set at h
    split at h
    · rcases List.mem_cons.1 h with h | h
      · exact Or.inl h
      · exact Or.inr (by simp [h])
    · split at h
      · rcases List.mem_cons.1 h with h | h
        · exact Or.inl h
        · exact Or.inr h
      · rcases List.mem_cons.1 h with h | h
        · exact Or.inr (by simp [h])
        · rcases ih h with h | h
          · exact Or.inl h
          · exact Or.inr (by simp [h])

theorem addFlags_mem {D : Type} {flags : List (List Str)} {p p' : Parser D} (h : flags.foldlM addFlag p = .ok p') (x : Str × (Str × Str))
    (hx : x ∈ p'.flags) :
    x ∈ p.flags ∨ ∃ f ∈ flags, ∃ short desc, Declares f x.1 short desc ∧ x.2 = registered short desc := by
  induction flags generalizing p with
  | nil => cases h; exact Or.inl hx
  | cons f flags ih =>
    rw [List.foldlM_cons] at h
    obtain ⟨p1, e, h⟩ := Res.bind_eq_ok.1 h
    obtain ⟨h3, full, short, desc, hd⟩ := addFlag_ok e
    obtain ⟨p1', e1, e2⟩ := addFlag_good h3 hd p
    rw [e] at e1; cases e1
    rcases ih h with hl | ⟨g, hg, s, d, hs⟩
    · rw [e2] at hl
      rcases mem_map_set hl with rfl | hl
      · exact Or.inr ⟨f, by simp, short, desc, hd, rfl⟩
      · exact Or.inl hl
    · exact Or.inr ⟨g, by simp [hg], s, d, hs⟩

theorem declared_fits {flags : List (List Str)} (hfit : ∀ f ∈ flags, ∀ i ∈ f, Fits i) :
    (flagSizes flags).1 < 2 ^ 63 ∧ (flagSizes flags).2 < 2 ^ 63 := by
  rw [flagSizes_flat]
  refine sizes_bound (fun i hi => ?_) (by decide)
  obtain ⟨f, hf, hi⟩ := List.mem_flatMap.1 hi
  rcases mem_vecSetInsert.1 hf with rfl | hf
  · have : ∀ i ∈ helpFlag, i.length < 2 ^ 63 := by decide
    exact this i hi
  · exact hfit f hf i hi

/-- The names of a flag whose declaration has an abbreviation fit the columns. -/
theorem declared_width {flags : List (List Str)} {f : List Str} (hf : f ∈ flags ∨ f = helpFlag) {x : Str} {short desc : Option Str}
    (hd : Declares f x short desc) : x.length ≤ (flagSizes flags).1 ∧ ∀ s, short = some s → s.length ≤ (flagSizes flags).2 := by
  rw [flagSizes_flat]
  have hin : ∀ i ∈ f, i ∈ (vecSetInsert helpFlag flags).flatMap id :=
    fun i hi => List.mem_flatMap.2 ⟨f, mem_vecSetInsert.2 hf.symm, hi⟩
  constructor
  · have : x ∈ (f.map trimmed).filter isFullName := by rw [hd.full]; simp
    obtain ⟨hx, hk⟩ := List.mem_filter.1 this
    obtain ⟨i, hi, rfl⟩ := List.mem_map.1 hx
    exact (sizes_self (hin i hi) _).1 hk
  · rintro s rfl
    have : s ∈ (f.map trimmed).filter isAbbrev := by rw [hd.short]; simp
    obtain ⟨hx, hk⟩ := List.mem_filter.1 this
    obtain ⟨i, hi, rfl⟩ := List.mem_map.1 hx
    exact (sizes_self (hin i hi) _).2 hk

theorem usage_fits {D : Type} {flags : List (List Str)} {p : Parser D} (hp : newParser flags = .ok p)
    (habb : ∀ f ∈ flags, ∃ i ∈ f, isAbbrev (trimmed i) = true) :
    ∀ f ∈ p.flags, f.1.length ≤ (flagSizes flags).1 ∧ f.2.1.length ≤ (flagSizes flags).2 := by
  intro x hx
  rcases addFlags_mem hp x hx with hl | ⟨f, hf, short, desc, hd, e⟩
  · cases hl
  · have hf' := (mem_vecSetInsert.1 hf).symm
    obtain ⟨h1, h2⟩ := declared_width hf' hd
    refine ⟨h1, ?_⟩
    cases short with
    | some s => rw [e]; exact h2 s rfl
    | none =>
      exfalso
      have : ∃ i ∈ f, isAbbrev (trimmed i) = true := by
        rcases hf' with hf' | rfl
        · exact habb f hf'
        · exact ⟨(lit "-h"), by decide, by decide⟩
      obtain ⟨i, hi, hk⟩ := this
      have : trimmed i ∈ (f.map trimmed).filter isAbbrev := List.mem_filter.2 ⟨List.mem_map_of_mem hi, hk⟩
      rw [hd.short] at this
      cases this

/-- C85 (partial): if every declared flag has an abbreviation, the help text consists of exactly the following words: `Options:`, and for
every flag, in order, its full name, its abbreviation and the words of its description. Missing: flags without abbreviation (see
`C85_refuted_long` and `C85_refuted_hang`). -/
theorem C85_words_partial {D : Type} {flags : List (List Str)} {p : Parser D} (hp : newParser flags = .ok p)
    (hfit : ∀ f ∈ flags, ∀ i ∈ f, Fits i) (habb : ∀ f ∈ flags, ∃ i ∈ f, isAbbrev (trimmed i) = true) :
    ∃ text, showUsage p.flags (flagSizes flags) = .ok text ∧
      splitSt text = (lit "Options:") :: p.flags.flatMap (fun f => splitSt f.1 ++ splitSt f.2.1 ++ splitSt f.2.2) :=
  ⟨_, showUsage_ok (usage_fits hp habb) (declared_fits hfit), splitSt_usage _ _⟩


/-- The number of characters since the last line feed never exceeds `W`, when `col` characters are already on the line. -/
def Wid (W : Nat) : Nat → Str → Prop
  | col, [] => col ≤ W
  | col, c :: s => col ≤ W ∧ Wid W (if c = '\n' then 0 else col + 1) s

theorem Wid.mono {W c c' : Nat} {s : Str} (h : Wid W c s) (hc : c' ≤ c) : Wid W c' s := by
  induction s generalizing c c' with
  | nil => exact Nat.le_trans hc h
  | cons x s ih =>
    refine ⟨Nat.le_trans hc h.1, ih h.2 ?_⟩
    split <;> omega

theorem Wid.le {W c : Nat} {s : Str} (h : Wid W c s) : c ≤ W := by
  cases s with
  | nil => exact h
  | cons x s => exact h.1

/-- Any text that keeps the line within `W` can be put before. -/
theorem Wid.cons {W c : Nat} {s t : Str} (h : Wid W (c + s.length) t) : Wid W c (s ++ t) := by
  induction s generalizing c with
  | nil => simpa using h
  | cons x s ih =>
    have := h.le
    simp only [List.length_cons] at this h
    refine ⟨by omega, ih (h.mono ?_)⟩
    split <;> omega

theorem Wid.newline {W c : Nat} {t : Str} (hc : c ≤ W) (h : Wid W 0 t) : Wid W c ('\n' :: t) := ⟨hc, by simpa using h⟩

theorem Wid.line {W c : Nat} {l t : Str} (h : Wid W c (l ++ t)) (hl : '\n' ∉ l) : c + l.length ≤ W := by
  induction l generalizing c with
  | nil => simpa using h.le
  | cons x l ih =>
    have h2 := h.2
    rw [if_neg (fun e => hl (by simp [e]))] at h2
    have := ih h2 (fun hn => hl (by simp [hn]))
    simp only [List.length_cons]; omega

theorem Wid.infix {W c : Nat} {l t : Str} (h : Wid W c t) (hl : '\n' ∉ l) (hi : l <:+: t) : l.length ≤ W := by
  obtain ⟨a, b, rfl⟩ := hi
  rw [List.append_assoc] at h
  have key : ∀ (a : Str) (c : Nat) (t : Str), Wid W c (a ++ t) → ∃ c', Wid W c' t := by
    intro a
    induction a with
    | nil => exact fun c t h => ⟨c, h⟩
    | cons x a ih => exact fun c t h => ih _ _ h.2
  obtain ⟨c', h'⟩ := key a c _ h
  have := h'.line hl
  omega

theorem wid_wrapWords {allowed space L : Nat} (ha : allowed + space = 80) (ha1 : 1 ≤ allowed) (ws : List Str) (hL : ∀ w ∈ ws, w.length ≤ L)
    (used col : Nat) (h1 : used < allowed) (h2 : col ≤ space + used + (L + 1)) (t : Str) (ht : Wid (80 + L) 0 t) :
    Wid (80 + L) col (wrapWords allowed space used ws ++ '\n' :: t) := by
  induction ws generalizing used col with
  | nil => exact Wid.newline (by omega) ht
  | cons w ws ih =>
    have hw := hL w (by simp)
    have ih' := fun u c => ih (fun x hx => hL x (by simp [hx])) u c
    unfold wrapWords
    simp only
    split
    · rename_i hlt
      rw [List.append_assoc, List.append_assoc]
      refine Wid.cons (Wid.cons ?_)
      refine ih' _ _ hlt ?_
      simp only [List.length_cons, List.length_nil]; omega
    · simp only [List.append_assoc, List.cons_append, List.nil_append]
      refine Wid.newline (by omega) (Wid.cons (Wid.cons (Wid.cons (s := [' ']) ?_)))
      refine ih' 0 _ (by omega) ?_
      simp only [List.length_cons, List.length_nil, List.length_replicate]; omega

theorem wid_block {sizes : Nat × Nat} {L : Nat} (hsp : sizes.1 + sizes.2 + 2 < 80) {item : Str × (Str × Str)}
    (h1 : item.1.length ≤ sizes.1) (h2 : item.2.1.length ≤ sizes.2) (hL : ∀ w ∈ splitSt item.2.2, w.length ≤ L) {t : Str}
    (ht : Wid (80 + L) 0 t) : Wid (80 + L) 0 (usageBlock sizes item ++ t) := by
  have ha : toSize (80 - ((sizes.1 + sizes.2 + 2 : Nat) : Int)) = 80 - (sizes.1 + sizes.2 + 2) := by
    unfold toSize
    rw [Int.emod_eq_of_lt (by omega) (by omega)]
    omega
  unfold usageBlock
  simp only [List.append_assoc, ha]
  refine Wid.cons (Wid.cons (Wid.cons (Wid.cons ?_)))
  refine wid_wrapWords (by omega) (by omega) _ hL 0 _ (by omega) ?_ _ (Wid.newline (by omega) ht)
  simp only [List.length_replicate]; omega

/-- C85 (partial, width): if the two columns of names leave room in a line of 80 characters, no line of the help text is longer than 80
characters and the longest word of a description together. Missing: the limit of 80 characters itself (`C85_refuted_width`). -/
theorem C85_width_partial {D : Type} {flags : List (List Str)} {p : Parser D} (hp : newParser flags = .ok p)
    (habb : ∀ f ∈ flags, ∃ i ∈ f, isAbbrev (trimmed i) = true) (hfit : ∀ f ∈ flags, ∀ i ∈ f, Fits i)
    (hsp : (flagSizes flags).1 + (flagSizes flags).2 + 2 < 80) {L : Nat} (hL : ∀ f ∈ p.flags, ∀ w ∈ splitSt f.2.2, w.length ≤ L)
    {text : Str} (ht : showUsage p.flags (flagSizes flags) = .ok text) {line : Str} (hl : line <:+: text) (hn : '\n' ∉ line) :
    line.length ≤ 80 + L := by
  rw [showUsage_ok (usage_fits hp habb) (declared_fits hfit)] at ht
  cases ht
  refine Wid.infix (c := 0) ?_ hn hl
  have hu := usage_fits hp habb
  generalize p.flags = fl at hu hL
  rw [List.append_assoc]
  have : Wid (80 + L) 0 (fl.flatMap (usageBlock (flagSizes flags)) ++ (lit "\n")) := by
    induction fl with
    | nil => exact Wid.newline (by omega) (Nat.zero_le _)
    | cons f fl ih =>
      rw [List.flatMap_cons, List.append_assoc]
      exact wid_block hsp (hu f (by simp)).1 (hu f (by simp)).2 (hL f (by simp))
        (ih (fun g hg => hu g (by simp [hg])) (fun g hg => hL g (by simp [hg])))
  generalize fl.flatMap (usageBlock (flagSizes flags)) ++ (lit "\n") = t at this
  refine Wid.newline (by omega) (Wid.newline (by omega) (Wid.cons (s := (lit "Options:")) (Wid.newline ?_ (Wid.newline (by omega) this))))
  simp only [List.length_cons, List.length_nil]; omega

/-! #### Flags without abbreviation -/

theorem usageItem_cases (sizes : Nat × Nat) (item : Str × (Str × Str)) (out : Str) :
    (∃ t, usageItem sizes out item = .ok (out ++ t)) ∨ usageItem sizes out item = .diverge := by
  unfold usageItem padding
  simp only
  split
  · exact Or.inr rfl
  · rw [Res.ok_bind]
    split
    · exact Or.inr rfl
    · rw [Res.ok_bind]
      exact Or.inl ⟨_, by simp only [List.append_assoc]; rfl⟩

theorem usageItems_cases (sizes : Nat × Nat) (items : Map (Str × Str)) (out : Str) :
    (∃ t, items.foldlM (usageItem sizes) out = .ok (out ++ t)) ∨ items.foldlM (usageItem sizes) out = .diverge := by
  induction items generalizing out with
  | nil => exact Or.inl ⟨[], by simp⟩
  | cons x items ih =>
    rw [List.foldlM_cons]
    rcases usageItem_cases sizes x out with ⟨t, e⟩ | e
    · rw [e, Res.ok_bind]
      rcases ih (out ++ t) with ⟨t', e'⟩ | e'
      · exact Or.inl ⟨t ++ t', by rw [e', List.append_assoc]⟩
      · exact Or.inr e'
    · rw [e]; exact Or.inr rfl

theorem mem_of_get {V : Type} {m : Map V} {k : Str} {v : V} (h : m.get k = some v) : (k, v) ∈ m := by
  induction m with
  | nil => cases h
  | cons x m ih =>
    obtain ⟨k', v'⟩ := x
    unfold Map.get at h
    split at h
    · rename_i e; subst e; cases h; simp
    · exact List.mem_cons_of_mem _ (ih h)

/-- One flag whose output `f out` is at least `N` characters longer than `out`, or never ends. -/
theorem usage_item_in {sizes : Nat × Nat} {flags : Map (Str × Str)} {item : Str × (Str × Str)} (hi : item ∈ flags) :
    (usageItem sizes [] item = .diverge → showUsage flags sizes = .diverge) ∧
    (∀ t text, usageItem sizes [] item = .ok t → showUsage flags sizes = .ok text → t.length ≤ text.length) := by
  have shift : ∀ out, usageItem sizes out item = (usageItem sizes [] item).bind (fun t => .ok (out ++ t)) := by
    intro out
    unfold usageItem padding
    simp only
    split
    · rfl
    · rw [Res.ok_bind, Res.ok_bind]
      split
      · rfl
      · rw [Res.ok_bind, Res.ok_bind]
        simp [Res.bind]
  have key : ∀ (flags : Map (Str × Str)) (out : Str), item ∈ flags →
      (usageItem sizes [] item = .diverge → flags.foldlM (usageItem sizes) out = .diverge) ∧
      (∀ t text, usageItem sizes [] item = .ok t → flags.foldlM (usageItem sizes) out = .ok text → t.length ≤ text.length) := by
    intro flags
    induction flags with
    | nil => intro out h; cases h
    | cons x flags ih =>
      intro out hx
      rw [List.foldlM_cons]
      rcases List.mem_cons.1 hx with rfl | hx
      · constructor
        · intro h; rw [shift, h]; rfl
        · intro t text h ht
          rw [shift, h, Res.bind, Res.ok_bind] at ht
          rcases usageItems_cases sizes flags (out ++ t) with ⟨t', e⟩ | e
          · rw [e] at ht; cases ht; simp; omega
          · rw [e] at ht; cases ht
      · rcases usageItem_cases sizes x out with ⟨t', e⟩ | e
        · rw [e, Res.ok_bind]; exact ih _ hx
        · rw [e]; exact ⟨fun _ => rfl, fun _ _ _ h => by cases h⟩
  obtain ⟨k1, k2⟩ := key flags (lit "\n\nOptions:\n\n") hi
  unfold showUsage
  constructor
  · intro h; rw [k1 h]; rfl
  · intro t text h ht
    obtain ⟨out, e, ht⟩ := Res.bind_eq_ok.1 ht
    cases ht
    have := k2 t out h e
    simp only [List.length_append]; omega

/-- The longest abbreviation. -/
theorem sizes_short {items : List Str} {B : Nat} (h : ∀ i ∈ items, isAbbrev (trimmed i) = true → (trimmed i).length ≤ B) {m : Nat × Nat}
    (hm : m.2 ≤ B) : (items.foldl sizeItem m).2 ≤ B := by
  induction items generalizing m with
  | nil => exact hm
  | cons i items ih =>
    refine ih (fun x hx => h x (by simp [hx])) ?_
    have := h i (by simp)
    unfold sizeItem
    simp only
    split
    · exact hm
    · split
      · rename_i h2 h1
        have := this (by simp [isAbbrev, isFullName, h1, h2])
        simp only; omega
      · exact hm

theorem flagSizes_short {flags : List (List Str)} {B : Nat} (hB : 2 ≤ B)
    (h : ∀ f ∈ flags, ∀ i ∈ f, isAbbrev (trimmed i) = true → (trimmed i).length ≤ B) : (flagSizes flags).2 ≤ B := by
  rw [flagSizes_flat]
  refine sizes_short (fun i hi hk => ?_) (Nat.zero_le _)
  obtain ⟨f, hf, hi⟩ := List.mem_flatMap.1 hi
  rcases mem_vecSetInsert.1 hf with rfl | hf
  · have : ∀ i ∈ helpFlag, isAbbrev (trimmed i) = true → (trimmed i).length ≤ 2 := by decide
    exact Nat.le_trans (this i hi hk) hB
  · exact h f hf i hi hk

/-- C85 (refuted): with a flag that has no abbreviation, and abbreviations of less than 22 characters, the help text has more than 2^63
characters. -/
theorem C85_refuted_long {D : Type} {flags : List (List Str)} {p : Parser D} (hp : newParser flags = .ok p) {f : List Str} {x : Str}
    {desc : Option Str} (hf : f ∈ flags) (hd : Declares f x none desc)
    (huniq : ∀ g, g ∈ flags ∨ g = helpFlag → ∀ s d, Declares g x s d → s = none ∧ d = desc)
    (hshort : ∀ f ∈ flags, ∀ i ∈ f, isAbbrev (trimmed i) = true → (trimmed i).length < 22) :
    ∀ text, showUsage p.flags (flagSizes flags) = .ok text → 2 ^ 63 < text.length := by
  have hB := flagSizes_short (B := 21) (by omega) (fun f hf i hi hk => by have := hshort f hf i hi hk; omega)
  have hm := mem_of_get (C86_registered hp hf hd huniq)
  intro text ht
  rcases usageItem_cases (flagSizes flags) (x, registered none desc) [] with ⟨t, e⟩ | e
  · have hlen := (usage_item_in hm).2 t text (by simpa using e) ht
    refine Nat.lt_of_lt_of_le ?_ hlen
    unfold usageItem at e
    obtain ⟨p1, e1, e⟩ := Res.bind_eq_ok.1 e
    obtain ⟨p2, e2, e⟩ := Res.bind_eq_ok.1 e
    have h2 : 2 ^ 63 < p2.length := by
      unfold padding at e2
      simp only at e2
      split at e2
      · cases e2
      · cases e2
        rw [List.length_replicate]
        have : (((registered none desc).1 : Str).length : Int) = 23 := rfl
        unfold toSize
        rw [this]
        have : ((flagSizes flags).2 : Int) - 23 < 0 := by omega
        rw [show (((flagSizes flags).2 : Int) - 23) % 2 ^ 64 = 2 ^ 64 + (((flagSizes flags).2 : Int) - 23) by omega]
        omega
    have e := Res.ok.inj e
    have e := congrArg List.length e
    simp only [List.length_append, List.nil_append] at e
    omega
  · rw [(usage_item_in hm).1 e] at ht
    cases ht

/-- C85 (refuted): if the longest abbreviation has 22 characters and a flag has none, the help text never ends. -/
theorem C85_refuted_hang {D : Type} {flags : List (List Str)} {p : Parser D} (hp : newParser flags = .ok p) {f : List Str} {x : Str}
    {desc : Option Str} (hf : f ∈ flags) (hd : Declares f x none desc)
    (huniq : ∀ g, g ∈ flags ∨ g = helpFlag → ∀ s d, Declares g x s d → s = none ∧ d = desc)
    (hshort : ∀ f ∈ flags, ∀ i ∈ f, isAbbrev (trimmed i) = true → (trimmed i).length ≤ 22)
    {g : List Str} {i : Str} (hg : g ∈ flags) (hi : i ∈ g) (hi1 : isAbbrev (trimmed i) = true) (hi2 : (trimmed i).length = 22) :
    showUsage p.flags (flagSizes flags) = .diverge := by
  have hB := flagSizes_short (B := 22) (by omega) hshort
  have hB2 : 22 ≤ (flagSizes flags).2 := by
    rw [flagSizes_flat, ← hi2]
    exact (sizes_self (List.mem_flatMap.2 ⟨g, mem_vecSetInsert.2 (Or.inr hg), hi⟩) _).2 hi1
  have hm := mem_of_get (C86_registered hp hf hd huniq)
  refine (usage_item_in hm).1 ?_
  have h2 : (flagSizes flags).2 = 22 := by omega
  have e2 : padding (flagSizes flags).2 ((registered none desc).1 : Str).length = .diverge := by
    rw [h2]
    rfl
  unfold usageItem
  simp only [e2]
  unfold padding
  simp only
  split <;> rfl

/-! #### calc_J -/

/-- C85 (calc_J): all of calc_J's flags have abbreviations, so its help text is complete. -/
theorem C85_calcJ : ∃ (p : Parser Unit) (text : Str), newParser calcJFlagSet = .ok p ∧ showUsage p.flags (flagSizes calcJFlagSet) = .ok text ∧
    splitSt text = (lit "Options:") :: p.flags.flatMap (fun f => splitSt f.1 ++ splitSt f.2.1 ++ splitSt f.2.2) := by
  have hgood : ∀ f ∈ calcJFlagSet, f.length ≤ 3 ∧ ((f.map trimmed).filter isFullName).length = 1 ∧
      ((f.map trimmed).filter isAbbrev).length = 1 ∧ ((f.map trimmed).filter isDescription).length = 1 := by decide +kernel
  obtain ⟨p, hp⟩ := (C86_accepts (D := Unit) calcJFlagSet).2 (by
    intro f hf
    obtain ⟨h3, h1, h2, h4⟩ := hgood f hf
    obtain ⟨a, ha⟩ := List.length_eq_one_iff.1 h1
    obtain ⟨b, hb⟩ := List.length_eq_one_iff.1 h2
    obtain ⟨c, hc⟩ := List.length_eq_one_iff.1 h4
    exact ⟨h3, a, some b, some c, ha, hb, hc⟩)
  obtain ⟨text, e1, e2⟩ := C85_words_partial hp (by
      have : ∀ f ∈ calcJFlagSet, ∀ i ∈ f, i.length < 1000 := by decide +kernel
      intro f hf i hi
      have := this f hf i hi
      unfold Fits
      omega) (by
      have : ∀ f ∈ calcJFlagSet, ∃ i ∈ f, isAbbrev (trimmed i) = true := by decide +kernel
      exact this)
  exact ⟨p, text, hp, e1, e2⟩

/-- A line of calc_J's help text. -/
def longLine : Str := (lit "                            .pun/.orb/.7 file extension. This file is in the same format as ")

set_option maxRecDepth 4000 in
/-- C85 (refuted, width): calc_J's own help text has a line of more than 80 characters, although every word would fit into the line. -/
theorem C85_refuted_width : ∃ (p : Parser Unit) (text line : Str), newParser calcJFlagSet = .ok p ∧
    showUsage p.flags (flagSizes calcJFlagSet) = .ok text ∧ line <:+: text ∧ '\n' ∉ line ∧ line.length = 92 ∧
    ∀ f ∈ p.flags, ∀ w ∈ splitSt f.2.2, (flagSizes calcJFlagSet).1 + (flagSizes calcJFlagSet).2 + 2 + w.length + 1 < 80 := by
  have key : (match newParser (D := Unit) calcJFlagSet with
    | .ok p => (match showUsage p.flags (flagSizes calcJFlagSet) with
      | .ok text => decide (longLine <:+: text)
      | _ => false) && p.flags.all (fun f => (splitSt f.2.2).all fun w =>
        decide ((flagSizes calcJFlagSet).1 + (flagSizes calcJFlagSet).2 + 2 + w.length + 1 < 80))
    | _ => false) = true := by
    decide +kernel
  revert key
  cases hp : newParser (D := Unit) calcJFlagSet with
  | ok p =>
    simp only [Bool.and_eq_true, List.all_eq_true, decide_eq_true_eq]
    rintro ⟨key, hw⟩
    cases ht : showUsage p.flags (flagSizes calcJFlagSet) with
    | ok text =>
      rw [ht] at key
      exact ⟨p, text, longLine, rfl, ht, by simpa using key, by decide +kernel, by decide +kernel, hw⟩
    | _ => rw [ht] at key; cases key
  | _ => exact fun h => by cases h

/-- The hypotheses of the refutations are met. -/
example : Declares [(lit "--quiet")] (lit "--quiet") none none ∧ [(lit "--quiet")] ∈ someFlags ∧
    (∀ f ∈ someFlags, ∀ i ∈ f, isAbbrev (trimmed i) = true → (trimmed i).length < 22) := by
  exact ⟨⟨by decide, by decide, by decide⟩, by decide, by decide⟩
example : ∀ g, g ∈ someFlags ∨ g = helpFlag → ∀ s d, Declares g (lit "--quiet") s d → s = none ∧ d = none := by
  intro g hg s d h
  simp only [someFlags, List.mem_cons, List.not_mem_nil, or_false] at hg
  have hq : ∀ {a b : List Str}, a = b → a ≠ b → False := fun h h' => h' h
  rcases hg with (rfl | rfl) | rfl
  · exact (hq h.full (by decide)).elim
  · exact ⟨toList_inj h.short.symm, toList_inj h.desc.symm⟩
  · exact (hq h.full (by decide)).elim
example : let fl : List (List Str) := [[(lit "--a"), (lit "-a23456789012345678901")], [(lit "--b")]]
    (newParser (D := Unit) fl).bind (fun p => showUsage p.flags (flagSizes fl)) = .diverge := by decide +kernel
example : let fl : List (List Str) := [[(lit "--number"), (lit "-n"), (lit "How many")]]
    (newParser (D := Unit) fl).bind (fun p => showUsage p.flags (flagSizes fl)) =
      .ok (lit "\n\nOptions:\n\n--help   -h Display help message \n\n--number -n How many \n\n\n") := by decide +kernel

end Verif.Args
