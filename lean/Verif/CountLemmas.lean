import Verif.LogFileLemmas
import Verif.SetLemmas
/-
How many functions the reader of gross orbital populations counts.
-/
namespace Verif.Readers
open Strings Log

theorem foldl_sorted (l s : List Str) (hs : SortedSet s) : SortedSet (l.foldl (fun s k => strSetInsert k s) s) := by
  induction l generalizing s with
  | nil => exact hs
  | cons k l ih => exact ih _ (insert_sorted hs)

theorem strSet_sorted (l : List Str) : SortedSet (strSet l) := foldl_sorted l [] List.Pairwise.nil

theorem strSet_length_nodup {l : List Str} (h : l.Nodup) : (strSet l).length = l.length := by
  have : ∀ (l s : List Str), (∀ x ∈ l, x ∉ s) → l.Nodup → (l.foldl (fun s k => strSetInsert k s) s).length = s.length + l.length := by
    intro l
    induction l with
    | nil => simp
    | cons a l ih =>
      intro s hs hn
      obtain ⟨h1, h2⟩ := List.nodup_cons.1 hn
      rw [List.foldl_cons, ih _ (fun x hx hm => by
        rcases mem_strSetInsert.1 hm with rfl | hm
        · exact h1 hx
        · exact hs x (by simp [hx]) hm) h2, insert_not_mem (hs a (by simp))]
      simp only [List.length_cons]; omega
  have := this l [] (by simp) h
  unfold strSet
  simpa using this

theorem strSet_length_le (l : List Str) : (strSet l).length ≤ l.length :=
  (sorted_nodup (strSet_sorted l)).length_le_of_subset (fun _ hx => mem_strSet.1 hx)

theorem insert_le (k : Str) (s : List Str) : (strSetInsert k s).length ≤ s.length + 1 := by
  induction s with
  | nil => simp [strSetInsert]
  | cons a s ih =>
    unfold strSetInsert
    split
    · simp
    · split
      · simp
      · simp only [List.length_cons]; omega

theorem foldl_le (l s : List Str) : (l.foldl (fun s k => strSetInsert k s) s).length ≤ s.length + l.length := by
  induction l generalizing s with
  | nil => simp
  | cons a l ih =>
    rw [List.foldl_cons]
    have h1 := ih (strSetInsert a s)
    have h2 := insert_le a s
    simp only [List.length_cons]; omega

theorem nodup_of_foldl (l s : List Str) (hs : SortedSet s)
    (h : (l.foldl (fun s k => strSetInsert k s) s).length = s.length + l.length) : l.Nodup ∧ ∀ x ∈ l, x ∉ s := by
  induction l generalizing s with
  | nil => simp
  | cons a l ih =>
    rw [List.foldl_cons, List.length_cons] at h
    by_cases ha : a ∈ s
    · rw [insert_mem hs ha] at h
      have := foldl_le l s
      omega
    · have hi := insert_not_mem ha
      obtain ⟨h1, h2⟩ := ih (strSetInsert a s) (insert_sorted hs) (by rw [h, hi]; omega)
      refine ⟨List.nodup_cons.2 ⟨fun hm => h2 a hm (mem_strSetInsert.2 (.inl rfl)), h1⟩, ?_⟩
      intro x hx
      rcases List.mem_cons.1 hx with rfl | hx
      · exact ha
      · exact fun hm => h2 x hx (mem_strSetInsert.2 (.inr hm))

theorem nodup_of_strSet_length {l : List Str} (h : (strSet l).length = l.length) : l.Nodup :=
  (nodup_of_foldl l [] List.Pairwise.nil (by simpa [strSet] using h)).1

/-! ### the shape of the container -/

variable {α : Type}

/-- Keys and labels. -/
abbrev Shape := List ((Int × Str) × List Str)

def shape (orb : OrbCont α) : Shape := orb.map (fun e => (e.1, e.2.map (·.1)))

theorem keys_set (m : Map (List α)) (k : Str) (v : List α) : (m.set k v).map (·.1) = strSetInsert k (m.map (·.1)) := by
  induction m with
  | nil => rfl
  | cons p m ih =>
    obtain ⟨k', v'⟩ := p
    unfold Map.set
    simp only [List.map_cons]
    unfold strSetInsert
    split
    · rename_i h; subst h; rfl
    · split
      · rfl
      · simp [ih]

def shapeSet : Shape → Int × Str → Str → Shape
  | [], key, label => [(key, [label])]
  | (k, m) :: orb, key, label =>
    if key = k then (k, strSetInsert label m) :: orb
    else if pairLt key k then (key, [label]) :: (k, m) :: orb
    else (k, m) :: shapeSet orb key label

theorem shape_set (orb : OrbCont α) (key : Int × Str) (label : Str) (v : List α) :
    shape (orb.set key label v) = shapeSet (shape orb) key label := by
  induction orb with
  | nil => rfl
  | cons e orb ih =>
    obtain ⟨k, m⟩ := e
    unfold OrbCont.set
    show _ = shapeSet ((k, m.map (·.1)) :: shape orb) key label
    unfold shapeSet
    split
    · simp [shape, keys_set]
    · split
      · rfl
      · rw [← ih]; rfl

def shapeFns (s : Shape) (key : Int × Str) (labels : List Str) : Shape := labels.foldl (fun s l => shapeSet s key l) s

theorem shape_addFns (orb : OrbCont α) (key : Int × Str) (fns : List (Fn α)) :
    shape (addFns orb key fns) = shapeFns (shape orb) key (fns.map (·.label)) := by
  unfold addFns shapeFns
  induction fns generalizing orb with
  | nil => rfl
  | cons f fns ih => rw [List.foldl_cons, ih, shape_set]; rfl

/-- Entries of atoms before atom `k`. -/
def Below (k : Int) (pre : Shape) : Prop := ∀ e ∈ pre, e.1.1 < k

theorem shapeSet_skip {k : Int} {pre : Shape} (h : Below k pre) (s : Shape) (elem label : Str) :
    shapeSet (pre ++ s) (k, elem) label = pre ++ shapeSet s (k, elem) label := by
  induction pre with
  | nil => rfl
  | cons e pre ih =>
    obtain ⟨⟨i, x⟩, m⟩ := e
    have h1 : i < k := h ((i, x), m) (by simp)
    rw [List.cons_append, shapeSet, if_neg (by simp only [Prod.mk.injEq]; omega), if_neg (by simp [pairLt]; omega),
      ih (fun e he => h e (by simp [he]))]
    rfl

theorem shapeFns_skip {k : Int} {pre : Shape} (h : Below k pre) (s : Shape) (elem : Str) (labels : List Str) :
    shapeFns (pre ++ s) (k, elem) labels = pre ++ shapeFns s (k, elem) labels := by
  unfold shapeFns
  induction labels generalizing s with
  | nil => rfl
  | cons l labels ih => rw [List.foldl_cons, List.foldl_cons, shapeSet_skip h, ih]

theorem shapeFns_same (key : Int × Str) (m : List Str) (s : Shape) (labels : List Str) :
    shapeFns ((key, m) :: s) key labels = (key, labels.foldl (fun s k => strSetInsert k s) m) :: s := by
  unfold shapeFns
  induction labels generalizing m with
  | nil => rfl
  | cons l labels ih => rw [List.foldl_cons, shapeSet, if_pos rfl, ih]; rfl

theorem foldl_known {s : List Str} (hs : SortedSet s) (l : List Str) (h : ∀ x ∈ l, x ∈ s) :
    l.foldl (fun s k => strSetInsert k s) s = s := by
  induction l with
  | nil => rfl
  | cons a l ih => rw [List.foldl_cons, insert_mem hs (h a (by simp)), ih (fun x hx => h x (by simp [hx]))]

/-- A second element for the same atom gets an entry of its own. -/
theorem shapeFns_two (k : Int) (e e' : Str) (hne : e ≠ e') (m : List Str) (l : Str) (ls : List Str) :
    (shapeFns [((k, e), m)] (k, e') (l :: ls)).length = 2 := by
  have key : ∀ (ls : List Str) (m' : List Str) (s t : Shape), (∀ x ∈ s, (k, e') ≠ x.1 ∧ pairLt (k, e') x.1 = false) →
      shapeFns (s ++ ((k, e'), m') :: t) (k, e') ls = s ++ shapeFns (((k, e'), m') :: t) (k, e') ls := by
    intro ls
    induction ls with
    | nil => intros; rfl
    | cons l ls ih =>
      intro m' s t hs
      have e1 : shapeSet (s ++ ((k, e'), m') :: t) (k, e') l = s ++ ((k, e'), strSetInsert l m') :: t := by
        induction s with
        | nil => simp [shapeSet]
        | cons x s ihs =>
          obtain ⟨x1, x2⟩ := x
          have hx := hs (x1, x2) (by simp)
          rw [List.cons_append, shapeSet, if_neg hx.1, if_neg (by simp [hx.2]), ihs (fun y hy => hs y (by simp [hy]))]
          rfl
      show shapeFns (shapeSet (s ++ ((k, e'), m') :: t) (k, e') l) (k, e') ls =
        s ++ shapeFns (shapeSet (((k, e'), m') :: t) (k, e') l) (k, e') ls
      rw [e1, ih _ s t hs, shapeSet, if_pos rfl]
  show (shapeFns (shapeSet [((k, e), m)] (k, e') l) (k, e') ls).length = 2
  rw [shapeSet, if_neg (by simp only [Prod.mk.injEq, not_and]; intro _ h; exact hne h.symm)]
  by_cases hp : pairLt (k, e') (k, e) = true
  · rw [if_pos hp, shapeFns_same]; rfl
  · rw [if_neg hp]
    have := key ls [l] [((k, e), m)] [] (by
      intro x hx
      simp only [List.mem_singleton] at hx
      subst hx
      exact ⟨by simp only [ne_eq, Prod.mk.injEq, not_and]; intro _ h; exact hne h.symm, by simpa using hp⟩)
    rw [show shapeSet [] (k, e') l = [((k, e'), [l])] from rfl]
    rw [List.singleton_append] at this
    rw [this, shapeFns_same]; rfl

/-- The structure of a table: elements and labels. -/
abbrev Structure := List (Str × List Str)

def structureOf (atoms : List (Atom α)) : Structure := atoms.map (fun a => (a.elem, a.fns.map (·.label)))

/-- What such a table leaves, atoms being numbered from `k`. -/
def tableShape (k : Int) : Structure → Shape
  | [] => []
  | (e, ls) :: st => ((k, e), strSet ls) :: tableShape (k + 1) st

theorem below_step {k : Int} {pre : Shape} (h : Below k pre) (e : Str) (ls : List Str) : Below (k + 1) (pre ++ [((k, e), ls)]) := by
  intro x hx
  rcases List.mem_append.1 hx with hx | hx
  · have := h x hx; omega
  · simp only [List.mem_singleton] at hx; subst hx; simp only []; omega

theorem shape_addAtoms (atoms : List (Atom α)) (k : Int) (orb : OrbCont α) (pre : Shape) (hb : Below k pre)
    (h : shape orb = pre ∨ shape orb = pre ++ tableShape k (structureOf atoms)) :
    shape (addAtoms orb k atoms) = pre ++ tableShape k (structureOf atoms) := by
  induction atoms generalizing k orb pre with
  | nil => simpa [structureOf, tableShape, addAtoms] using h
  | cons a atoms ih =>
    rw [addAtoms]
    have e : pre ++ tableShape k (structureOf (a :: atoms)) =
        (pre ++ [((k, a.elem), strSet (a.fns.map (·.label)))]) ++ tableShape (k + 1) (structureOf atoms) := by
      simp [structureOf, tableShape]
    rw [e] at h ⊢
    apply ih (k + 1) _ _ (below_step hb _ _)
    rw [shape_addFns]
    rcases h with h | h
    · left
      rw [h]
      have : a.fns.map (·.label) = a.first.label :: a.more.map (·.label) := rfl
      rw [this, ← List.append_nil pre, shapeFns_skip hb]
      rw [List.append_nil]
      congr 1
      show shapeFns (shapeSet [] (k, a.elem) a.first.label) (k, a.elem) (a.more.map (·.label)) = _
      rw [show shapeSet [] (k, a.elem) a.first.label = [((k, a.elem), [a.first.label])] from rfl, shapeFns_same]
      rfl
    · right
      rw [h, List.append_assoc, shapeFns_skip hb, List.singleton_append, shapeFns_same,
        foldl_known (strSet_sorted _) _ (fun x hx => mem_strSet.2 hx)]

theorem shape_tables (st : Structure) (tables : List (List (Atom α))) (hne : tables ≠ []) (h : ∀ t ∈ tables, structureOf t = st) :
    shape (tables.foldl (fun o atoms => addAtoms o 1 atoms) []) = tableShape 1 st := by
  have : ∀ (tables : List (List (Atom α))) (orb : OrbCont α), (∀ t ∈ tables, structureOf t = st) → shape orb = tableShape 1 st →
      shape (tables.foldl (fun o atoms => addAtoms o 1 atoms) orb) = tableShape 1 st := by
    intro tables
    induction tables with
    | nil => intro orb _ h; exact h
    | cons t ts ih =>
      intro orb ht h
      refine ih _ (fun x hx => ht x (by simp [hx])) ?_
      have := shape_addAtoms t 1 orb [] (by intro e he; cases he) (.inr (by rw [ht t (by simp)]; exact h))
      rwa [ht t (by simp)] at this
  cases tables with
  | nil => exact absurd rfl hne
  | cons t ts =>
    refine this ts _ (fun x hx => h x (by simp [hx])) ?_
    have := shape_addAtoms t 1 [] [] (by intro e he; cases he) (.inl rfl)
    rwa [h t (by simp)] at this

theorem tableShape_counts (k : Int) (st : Structure) :
    (tableShape k st).map (fun e => (e.2.length : Int)) = st.map (fun a => ((strSet a.2).length : Int)) := by
  induction st generalizing k with
  | nil => rfl
  | cons a st ih => obtain ⟨e, ls⟩ := a; simp [tableShape, ih]

theorem counts_shape [Mul α] [Num α] [Zero α] (d : LogData α) : d.getBasisFuncCount = (shape d.orb).map (fun e => (e.2.length : Int)) := by
  simp [LogData.getBasisFuncCount, shape]

end Verif.Readers
