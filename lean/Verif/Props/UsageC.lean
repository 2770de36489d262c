import Verif.Props.Usage
import Verif.Spec.Declared
import Verif.SetLemmas
/-
C86, flags declared more than once: the last declaration in the order of the set counts.
-/
namespace Verif.Args
open Strings Readers

theorem Dict.cons {L : Type} {lt : L → L → Prop} {c : L} {a b : List L} (h : Dict lt a b) : Dict lt (c :: a) (c :: b) := by
  rcases h with ⟨d, s, rfl⟩ | ⟨p, x, y, s, t, rfl, rfl, hl⟩
  · exact .inl ⟨d, s, rfl⟩
  · exact .inr ⟨c :: p, x, y, s, t, rfl, rfl, hl⟩

theorem Dict.cons_inv {L : Type} {lt : L → L → Prop} {x y : L} {a b : List L} (h : Dict lt (x :: a) (y :: b)) : lt x y ∨ x = y ∧ Dict lt a b := by
  rcases h with ⟨d, s, e⟩ | ⟨p, u, v, s, t, e1, e2, hl⟩
  · rw [List.cons_append] at e
    obtain ⟨e1, e2⟩ := List.cons.inj e
    exact .inr ⟨e1.symm, .inl ⟨d, s, e2⟩⟩
  · cases p with
    | nil =>
      obtain ⟨e1, -⟩ := List.cons.inj e1
      obtain ⟨e2, -⟩ := List.cons.inj e2
      exact .inl (e1 ▸ e2 ▸ hl)
    | cons c p =>
      obtain ⟨e1, e1'⟩ := List.cons.inj e1
      obtain ⟨e2, e2'⟩ := List.cons.inj e2
      exact .inr ⟨e1.trans e2.symm, .inr ⟨p, u, v, s, t, e1', e2', hl⟩⟩

theorem Dict.not_nil {L : Type} {lt : L → L → Prop} {a : List L} : ¬ Dict lt a [] := by
  rintro (⟨d, s, e⟩ | ⟨p, x, y, s, t, -, e, -⟩)
  · exact absurd (congrArg List.length e) (by simp)
  · exact absurd (congrArg List.length e) (by simp)

theorem toNat_inj {c d : Char} (h : c.toNat = d.toNat) : c = d := Char.ext (UInt32.toNat_inj.1 h)

theorem strLt_iff : ∀ a b : Str, strLt a b = true ↔ Dict (fun c d : Char => c.toNat < d.toNat) a b
  | [], [] => ⟨fun h => (by cases h), fun h => absurd h Dict.not_nil⟩
  | [], c :: b => ⟨fun _ => .inl ⟨c, b, rfl⟩, fun _ => rfl⟩
  | c :: a, [] => ⟨fun h => (by cases h), fun h => absurd h Dict.not_nil⟩
  | c :: a, d :: b => by
    have ih := strLt_iff a b
    unfold strLt
    constructor
    · intro h
      split at h
      · rename_i hl
        exact .inr ⟨[], c, d, a, b, rfl, rfl, hl⟩
      split at h
      · cases h
      · have : c = d := toNat_inj (by omega)
        subst this
        exact (ih.1 h).cons
    · intro h
      rcases h.cons_inv with hl | ⟨rfl, h'⟩
      · rw [if_pos hl]
      · rw [if_neg (by omega), if_neg (by omega)]
        exact ih.2 h'

theorem vecLt_iff : ∀ a b : List Str, vecLt a b = true ↔ Earlier a b
  | [], [] => ⟨fun h => (by cases h), fun h => absurd h Dict.not_nil⟩
  | [], c :: b => ⟨fun _ => .inl ⟨c, b, rfl⟩, fun _ => rfl⟩
  | c :: a, [] => ⟨fun h => (by cases h), fun h => absurd h Dict.not_nil⟩
  | c :: a, d :: b => by
    have ih := vecLt_iff a b
    unfold vecLt
    constructor
    · intro h
      split at h
      · rename_i hl
        exact .inr ⟨[], c, d, a, b, rfl, rfl, (strLt_iff _ _).1 hl⟩
      · rename_i hn
        split at h
        · cases h
        · rename_i hn'
          have : c = d := by
            by_contra hne
            exact hn' (strLt_total hne (by simpa using hn))
          subst this
          exact (ih.1 h).cons
    · intro h
      rcases Dict.cons_inv h with hl | ⟨rfl, h'⟩
      · rw [if_pos ((strLt_iff _ _).2 hl)]
      · rw [if_neg (by rw [strLt_irrefl]; simp), if_neg (by rw [strLt_irrefl]; simp)]
        exact ih.2 h'

theorem vecLt_irrefl (a : List Str) : vecLt a a = false := by
  induction a with
  | nil => rfl
  | cons c a ih => simp [vecLt, strLt_irrefl, ih]

theorem vecLt_total {a b : List Str} (h : a ≠ b) (h1 : vecLt a b = false) : vecLt b a = true := by
  induction a generalizing b with
  | nil => cases b with
    | nil => exact absurd rfl h
    | cons c b => cases h1
  | cons c a ih => cases b with
    | nil => rfl
    | cons d b =>
      unfold vecLt at h1 ⊢
      split at h1
      · cases h1
      rename_i n1
      split at h1
      · rename_i n2; rw [if_pos n2]
      rename_i n2
      rw [if_neg n2, if_neg n1]
      have hcd : c = d := by
        by_contra hne
        exact n2 (strLt_total hne (by simpa using n1))
      exact ih (fun e => h (by rw [hcd, e])) h1

theorem vecLt_trans {a b c : List Str} (h1 : vecLt a b = true) (h2 : vecLt b c = true) : vecLt a c = true := by
  induction a generalizing b c with
  | nil => cases b with
    | nil => cases h1
    | cons y b => cases c with
      | nil => cases h2
      | cons z c => rfl
  | cons x a ih => cases b with
    | nil => cases h1
    | cons y b => cases c with
      | nil => cases h2
      | cons z c =>
        rw [vecLt_iff] at h1 h2
        rw [vecLt, ]
        rcases Dict.cons_inv h1 with g1 | ⟨rfl, g1⟩
        · rcases Dict.cons_inv h2 with g2 | ⟨rfl, g2⟩
          · rw [if_pos (strLt_trans ((strLt_iff _ _).2 g1) ((strLt_iff _ _).2 g2))]
          · rw [if_pos ((strLt_iff _ _).2 g1)]
        · rcases Dict.cons_inv h2 with g2 | ⟨rfl, g2⟩
          · rw [if_pos ((strLt_iff _ _).2 g2)]
          · rw [if_neg (by rw [strLt_irrefl]; simp), if_neg (by rw [strLt_irrefl]; simp)]
            exact ih ((vecLt_iff _ _).2 g1) ((vecLt_iff _ _).2 g2)

theorem Earlier.not {a b : List Str} (h : Earlier a b) (h' : Earlier b a ∨ a = b) : False := by
  rcases h' with h' | rfl
  · have := vecLt_trans ((vecLt_iff _ _).2 h) ((vecLt_iff _ _).2 h')
    rw [vecLt_irrefl] at this
    cases this
  · have := (vecLt_iff _ _).2 h
    rw [vecLt_irrefl] at this
    cases this

theorem vecSetInsert_sorted (k : List Str) : ∀ l : List (List Str), l.Pairwise Earlier → (vecSetInsert k l).Pairwise Earlier
  | [], _ => List.pairwise_singleton _ _
  | x :: l, h => by
    unfold vecSetInsert
    split
    · exact h
    rename_i hne
    obtain ⟨h1, h2⟩ := List.pairwise_cons.1 h
    split
    · rename_i hlt
      refine List.pairwise_cons.2 ⟨fun y hy => ?_, h⟩
      rcases List.mem_cons.1 hy with rfl | hy
      · exact (vecLt_iff _ _).1 hlt
      · exact (vecLt_iff _ _).1 (vecLt_trans hlt ((vecLt_iff _ _).2 (h1 y hy)))
    · rename_i hlt
      refine List.pairwise_cons.2 ⟨fun y hy => ?_, vecSetInsert_sorted k l h2⟩
      rcases mem_vecSetInsert.1 hy with rfl | hy
      · exact (vecLt_iff _ _).1 (vecLt_total hne (by simpa using hlt))
      · exact h1 y hy

variable {D : Type}

/-- Of a sorted list of declarations, those of `x` after `f` ruled out, `f` is what is known of `x` in the end. -/
theorem addFlags_last {flags : List (List Str)} {p p' : Parser D} (h : flags.foldlM addFlag p = .ok p') (sorted : flags.Pairwise Earlier) {f : List Str} {x : Str}
    {short desc : Option Str} (hf : f ∈ flags) (hd : Declares f x short desc) (last : ∀ g ∈ flags, ∀ s d, Declares g x s d → g = f ∨ Earlier g f) :
    p'.flags.get x = some (registered short desc) := by
  induction flags generalizing p with
  | nil => cases hf
  | cons g flags ih =>
    obtain ⟨h1, h2⟩ := List.pairwise_cons.1 sorted
    rcases List.mem_cons.1 hf with rfl | hf
    · refine addFlags_get h hd (fun g hg s d hgd => ?_) (.inl (by simp))
      rcases List.mem_cons.1 hg with rfl | hg'
      · obtain ⟨-, e1, e2⟩ := hd.unique hgd
        exact ⟨e1.symm, e2.symm⟩
      · rcases last g hg s d hgd with e | hl
        · exact ((h1 _ hg').not (.inr e.symm)).elim
        · exact ((h1 _ hg').not (.inl hl)).elim
    · rw [List.foldlM_cons] at h
      obtain ⟨p1, e, h⟩ := Res.bind_eq_ok.1 h
      exact ih h h2 hf fun g hg => last g (by simp [hg])

/-- C86 (declared more than once): of several declarations of one full name, the caller's own ones and that of `--help` the constructor adds, the last one
in the order of the set counts. -/
theorem C86_last {flags : List (List Str)} (sorted : flags.Pairwise Earlier) {p : Parser D} (h : newParser flags = .ok p) {f : List Str} {x : Str}
    {short desc : Option Str} (hf : f ∈ flags ∨ f = helpFlag) (hd : Declares f x short desc)
    (last : ∀ g, g ∈ flags ∨ g = helpFlag → ∀ s d, Declares g x s d → g = f ∨ Earlier g f) :
    p.flags.get x = some (registered short desc) :=
  addFlags_last h (vecSetInsert_sorted _ _ sorted) (mem_vecSetInsert.2 hf.symm) hd fun g hg => last g (mem_vecSetInsert.1 hg).symm

/-- The hypotheses are met: `--help` declared by the caller, before and after the constructor's own declaration. -/
def helpA : List Str := [(lit "--help"), (lit "-a"), (lit "My own help")]
def helpZ : List Str := [(lit "--help"), (lit "-z"), (lit "My own help")]
def before1 : List Str := [(lit "-x"), (lit "A flag"), (lit "--aflag")]

theorem of_lt {a b : List Str} (h : vecLt a b = true) : Earlier a b := (vecLt_iff a b).1 h

theorem declares_helpA : Declares helpA (lit "--help") (some (lit "-a")) (some (lit "My own help")) := ⟨by decide, by decide, by decide⟩
theorem declares_helpZ : Declares helpZ (lit "--help") (some (lit "-z")) (some (lit "My own help")) := ⟨by decide, by decide, by decide⟩
theorem declares_before : Declares before1 (lit "--aflag") (some (lit "-x")) (some (lit "A flag")) := ⟨by decide, by decide, by decide⟩

/-- The caller's declaration comes last and counts. -/
example : ∃ p : Parser Unit, newParser [helpZ, before1] = .ok p ∧ p.flags.get (lit "--help") = some ((lit "-z"), (lit "My own help")) := by
  obtain ⟨p, hp⟩ := (C86_accepts (D := Unit) [helpZ, before1]).2 (by
    intro f hf
    simp only [List.mem_cons, List.not_mem_nil, or_false] at hf
    rcases hf with rfl | rfl
    · exact ⟨by decide, _, _, _, declares_helpZ⟩
    · exact ⟨by decide, _, _, _, declares_before⟩)
  refine ⟨p, hp, C86_last ?_ hp (.inl (by simp)) declares_helpZ ?_⟩
  · exact List.pairwise_cons.2 ⟨fun y hy => by rw [List.mem_singleton.1 hy]; exact of_lt (by decide), List.pairwise_singleton _ _⟩
  · intro g hg s d hd
    simp only [List.mem_cons, List.not_mem_nil, or_false] at hg
    rcases hg with (rfl | rfl) | rfl
    · exact .inl rfl
    · exact absurd (declares_before.unique hd).1 (by decide)
    · exact .inr (of_lt (by decide))

/-- The constructor's declaration comes last and counts: the caller's is lost. -/
example : ∃ p : Parser Unit, newParser [helpA, before1] = .ok p ∧ p.flags.get (lit "--help") = some ((lit "-h"), (lit "Display help message")) := by
  obtain ⟨p, hp⟩ := (C86_accepts (D := Unit) [helpA, before1]).2 (by
    intro f hf
    simp only [List.mem_cons, List.not_mem_nil, or_false] at hf
    rcases hf with rfl | rfl
    · exact ⟨by decide, _, _, _, declares_helpA⟩
    · exact ⟨by decide, _, _, _, declares_before⟩)
  refine ⟨p, hp, C86_last ?_ hp (.inr rfl) help_declares ?_⟩
  · exact List.pairwise_cons.2 ⟨fun y hy => by rw [List.mem_singleton.1 hy]; exact of_lt (by decide), List.pairwise_singleton _ _⟩
  · intro g hg s d hd
    simp only [List.mem_cons, List.not_mem_nil, or_false] at hg
    rcases hg with (rfl | rfl) | rfl
    · exact .inr (of_lt (by decide))
    · exact absurd (declares_before.unique hd).1 (by decide)
    · exact .inl rfl

end Verif.Args
