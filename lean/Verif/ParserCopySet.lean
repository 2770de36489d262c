import Verif.ParserCopyParse
import Mathlib.Tactic.Tauto
import Mathlib.Tactic.ByContra
/-
Lemmas for C135: the other calls. They may allocate an object.
-/
namespace Verif.Args
open Strings

/-- The change of one map of pointers and its objects; `fresh` says whether an object was allocated, `anew` for which flags the argument may be exchanged. -/
structure Part {A : Type} (own : List Str) (arena : List A) (m : Map Nat) (fresh : Prop) (anew : Str → Prop) (own' : List Str) (arena' : List A) (m' : Map Nat) : Prop where
  ledger : (fresh ∧ ∃ g, own' = own ++ [g]) ∨ (¬ fresh ∧ own' = own)
  fit : Fit own' m'
  size : arena'.length = own'.length
  frame : ∀ n, n < arena.length → arena'[n]? = arena[n]? ∨ ∃ g, m.get g = some n ∧ m'.get g = some n
  ptrs : ∀ g, m'.get g = m.get g ∨ ((m.get g = none ∨ anew g) ∧ m'.get g = some arena.length)
  renew : ∀ g, anew g → m'.get g = some arena.length

section
variable {S D : Type}

theorem updArgH_part {own : List Str} {m : Map Nat} (h : Fit own m) {arena : List (ArgObj S D)} (hl : arena.length = own.length) (flag : Str) (new : ArgObj S D)
    (f : ArgObj S D → Left (ArgObj S D)) :
    (updArgH arena m flag new f).2 = (updArgL (deref arena m) flag new f).2 ∧
    deref (updArgH arena m flag new f).1.1 (updArgH arena m flag new f).1.2 = (updArgL (deref arena m) flag new f).1 ∧
    ∃ own', Part own arena m (m.get flag = none) (fun _ => False) own' (updArgH arena m flag new f).1.1 (updArgH arena m flag new f).1.2 := by
  unfold updArgH updArgL
  cases hg : m.get flag with
  | some i =>
    obtain ⟨a, ha, hd⟩ := h.object hl hg
    rw [hd]
    simp only [callAt_some ha]
    refine ⟨trivial, h.deref_write hl hg _, own, .inr ⟨by simp, rfl⟩, h, by simpa using hl, fun n _ => ?_, fun g => .inl rfl, fun g hc => hc.elim⟩
    by_cases c : i = n
    · exact .inr ⟨flag, c ▸ hg, c ▸ hg⟩
    · exact .inl (by simp [c])
  | none =>
    rw [h.absent hl hg]
    simp only []
    have lost : ∃ own', Part own arena m True (fun _ => False) own' (arena ++ [(f new).1]) m :=
      ⟨own ++ [flag], .inl ⟨trivial, flag, rfl⟩, h.more flag, by simp [hl], fun n hn => .inl (List.getElem?_append_left hn), fun g => .inl rfl, fun g hc => hc.elim⟩
    cases hr : (f new).2 with
    | ok u =>
      simp only []
      refine ⟨trivial, h.deref_alloc hl _ _, own ++ [flag], .inl ⟨by simp, flag, rfl⟩, ?_, by simp [hl], fun n hn => .inl (List.getElem?_append_left hn), fun g => ?_,
        fun g hc => hc.elim⟩
      · rw [hl]; exact h.add flag
      · rw [Map.get_set]
        by_cases c : g = flag
        · subst c; exact .inr ⟨.inl hg, by rw [if_pos rfl]⟩
        · exact .inl (by rw [if_neg c])
    | _ => exact ⟨rfl, h.deref_more hl _, lost⟩

/-- A new object, and the pointer to it. -/
theorem alloc_part {own : List Str} {m : Map Nat} (h : Fit own m) {arena : List (ArgObj S D)} (hl : arena.length = own.length) (flag : Str) (new : ArgObj S D)
    (anew : Str → Prop) (ha : ∀ g, anew g → g = flag) (ha' : m.get flag = none ∨ anew flag) :
    Part own arena m True anew (own ++ [flag]) (arena ++ [new]) (m.set flag arena.length) := by
  refine ⟨.inl ⟨trivial, flag, rfl⟩, by rw [hl]; exact h.add flag, by simp [hl], fun n hn => .inl (List.getElem?_append_left hn), fun g => ?_, fun g hg => ?_⟩
  · rw [Map.get_set]
    by_cases c : g = flag
    · subst c; exact .inr ⟨ha', by rw [if_pos rfl]⟩
    · exact .inl (by rw [if_neg c])
  · rw [ha g hg, Map.get_set_self]
end

section
variable {D : Type}

/-- One object was allocated or none; the pointers still lead to objects of their flags; objects change only if this parser has them before and after;
a pointer changes only if there was none or the argument is exchanged. -/
structure Goes (own : ArgKind → List Str) (x : InMem D) (fresh : Prop) (anew : ArgKind → Str → Prop) (y : InMem D) : Prop where
  ledger : ∃ own' : ArgKind → List Str, (∀ k, own' k = own k ∨ ∃ g, own' k = own k ++ [g]) ∧ Fits' own' y.h ∧ Sized own' y.st
  count : (⟨y.st, []⟩ : World D).objects = (⟨x.st, []⟩ : World D).objects + (open Classical in if fresh then 1 else 0)
  frame : ∀ k n, n < x.st.len k → Same x.st y.st k n ∨ ∃ g, (x.h.map k).get g = some n ∧ (y.h.map k).get g = some n
  ptrs : ∀ k g, (y.h.map k).get g = (x.h.map k).get g ∨ (((x.h.map k).get g = none ∨ anew k g) ∧ (y.h.map k).get g = some (x.st.len k))
  renew : ∀ k g, anew k g → (y.h.map k).get g = some (x.st.len k)

variable {own : ArgKind → List Str} {x : InMem D}

theorem Quiet.goes {y : InMem D} (q : Quiet x y) (hf : Fits' own x.h) (hs : Sized own x.st) : Goes own x False (fun _ _ => False) y := by
  refine ⟨⟨own, fun k => .inl rfl, q.fits hf, q.sized hs⟩, ?_, fun k n _ => ?_, fun k g => .inl (by rw [q.ptrs k]), fun _ _ h => h.elim⟩
  · have h1 := q.lens .str
    have h2 := q.lens .switch
    have h3 := q.lens .int
    have h4 := q.lens .double
    have h5 := q.lens .file
    simp only [Store.len] at h1 h2 h3 h4 h5
    simp [World.objects, *]
  · rcases q.frame k n with e | ⟨g, e⟩
    · exact .inl e
    · exact .inr ⟨g, e, by rw [q.ptrs k]; exact e⟩

theorem Part.str (hf : Fits' own x.h) (hs : Sized own x.st) {fresh : Prop} {anew : Str → Prop} {own' : List Str} {arena' : List (ArgObj Str D)} {m' : Map Nat}
    (h : Part (own .str) x.st.str x.h.strArg fresh anew own' arena' m') :
    Goes own x fresh (fun k g => k = .str ∧ anew g) ⟨{ x.st with str := arena' }, { x.h with strArg := m' }⟩ := by
  have hl : x.st.str.length = (own .str).length := hs .str
  refine ⟨⟨fun k => if k = .str then own' else own k, fun k => ?_, fun k => ?_, fun k => ?_⟩, ?_, fun k n hn => ?_, fun k g => ?_, fun k g => ?_⟩
  · by_cases c : k = .str
    · subst c
      simp only [if_true]
      rcases h.ledger with e | e
      · exact .inr e.2
      · exact .inl e.2
    · simp only [if_neg c]; exact .inl trivial
  · cases k with
    | str => exact h.fit
    | switch => exact hf .switch
    | int => exact hf .int
    | double => exact hf .double
    | file => exact hf .file
  · cases k with
    | str => exact h.size
    | switch => exact hs .switch
    | int => exact hs .int
    | double => exact hs .double
    | file => exact hs .file
  · have hz : arena'.length = own'.length := h.size
    rcases h.ledger with ⟨c, g, e⟩ | ⟨c, e⟩
    · rw [if_pos c]
      simp only [World.objects, hz, e, List.length_append, List.length_singleton]
      omega
    · rw [if_neg c]
      simp only [World.objects, hz, e]
      omega
  · cases k with
    | str => exact h.frame n hn
    | _ => exact .inl rfl
  · cases k with
    | str =>
      rcases h.ptrs g with e | ⟨e, e'⟩
      · exact .inl e
      · exact .inr ⟨e.imp id fun e => ⟨rfl, e⟩, e'⟩
    | _ => exact .inl rfl
  · rintro ⟨rfl, e⟩
    exact h.renew g e

theorem Part.switch (hf : Fits' own x.h) (hs : Sized own x.st) {fresh : Prop} {anew : Str → Prop} {own' : List Str} {arena' : List (ArgObj Str D)} {m' : Map Nat}
    (h : Part (own .switch) x.st.switch x.h.switchArg fresh anew own' arena' m') :
    Goes own x fresh (fun k g => k = .switch ∧ anew g) ⟨{ x.st with switch := arena' }, { x.h with switchArg := m' }⟩ := by
  have hl : x.st.switch.length = (own .switch).length := hs .switch
  refine ⟨⟨fun k => if k = .switch then own' else own k, fun k => ?_, fun k => ?_, fun k => ?_⟩, ?_, fun k n hn => ?_, fun k g => ?_, fun k g => ?_⟩
  · by_cases c : k = .switch
    · subst c
      simp only [if_true]
      rcases h.ledger with e | e
      · exact .inr e.2
      · exact .inl e.2
    · simp only [if_neg c]; exact .inl trivial
  · cases k with
    | switch => exact h.fit
    | str => exact hf .str
    | int => exact hf .int
    | double => exact hf .double
    | file => exact hf .file
  · cases k with
    | switch => exact h.size
    | str => exact hs .str
    | int => exact hs .int
    | double => exact hs .double
    | file => exact hs .file
  · have hz : arena'.length = own'.length := h.size
    rcases h.ledger with ⟨c, g, e⟩ | ⟨c, e⟩
    · rw [if_pos c]
      simp only [World.objects, hz, e, List.length_append, List.length_singleton]
      omega
    · rw [if_neg c]
      simp only [World.objects, hz, e]
      omega
  · cases k with
    | switch => exact h.frame n hn
    | _ => exact .inl rfl
  · cases k with
    | switch =>
      rcases h.ptrs g with e | ⟨e, e'⟩
      · exact .inl e
      · exact .inr ⟨e.imp id fun e => ⟨rfl, e⟩, e'⟩
    | _ => exact .inl rfl
  · rintro ⟨rfl, e⟩
    exact h.renew g e

theorem Part.int (hf : Fits' own x.h) (hs : Sized own x.st) {fresh : Prop} {anew : Str → Prop} {own' : List Str} {arena' : List (ArgObj Int D)} {m' : Map Nat}
    (h : Part (own .int) x.st.int x.h.intArg fresh anew own' arena' m') :
    Goes own x fresh (fun k g => k = .int ∧ anew g) ⟨{ x.st with int := arena' }, { x.h with intArg := m' }⟩ := by
  have hl : x.st.int.length = (own .int).length := hs .int
  refine ⟨⟨fun k => if k = .int then own' else own k, fun k => ?_, fun k => ?_, fun k => ?_⟩, ?_, fun k n hn => ?_, fun k g => ?_, fun k g => ?_⟩
  · by_cases c : k = .int
    · subst c
      simp only [if_true]
      rcases h.ledger with e | e
      · exact .inr e.2
      · exact .inl e.2
    · simp only [if_neg c]; exact .inl trivial
  · cases k with
    | int => exact h.fit
    | str => exact hf .str
    | switch => exact hf .switch
    | double => exact hf .double
    | file => exact hf .file
  · cases k with
    | int => exact h.size
    | str => exact hs .str
    | switch => exact hs .switch
    | double => exact hs .double
    | file => exact hs .file
  · have hz : arena'.length = own'.length := h.size
    rcases h.ledger with ⟨c, g, e⟩ | ⟨c, e⟩
    · rw [if_pos c]
      simp only [World.objects, hz, e, List.length_append, List.length_singleton]
      omega
    · rw [if_neg c]
      simp only [World.objects, hz, e]
      omega
  · cases k with
    | int => exact h.frame n hn
    | _ => exact .inl rfl
  · cases k with
    | int =>
      rcases h.ptrs g with e | ⟨e, e'⟩
      · exact .inl e
      · exact .inr ⟨e.imp id fun e => ⟨rfl, e⟩, e'⟩
    | _ => exact .inl rfl
  · rintro ⟨rfl, e⟩
    exact h.renew g e

theorem Part.double (hf : Fits' own x.h) (hs : Sized own x.st) {fresh : Prop} {anew : Str → Prop} {own' : List Str} {arena' : List (ArgObj D D)} {m' : Map Nat}
    (h : Part (own .double) x.st.double x.h.doubleArg fresh anew own' arena' m') :
    Goes own x fresh (fun k g => k = .double ∧ anew g) ⟨{ x.st with double := arena' }, { x.h with doubleArg := m' }⟩ := by
  have hl : x.st.double.length = (own .double).length := hs .double
  refine ⟨⟨fun k => if k = .double then own' else own k, fun k => ?_, fun k => ?_, fun k => ?_⟩, ?_, fun k n hn => ?_, fun k g => ?_, fun k g => ?_⟩
  · by_cases c : k = .double
    · subst c
      simp only [if_true]
      rcases h.ledger with e | e
      · exact .inr e.2
      · exact .inl e.2
    · simp only [if_neg c]; exact .inl trivial
  · cases k with
    | double => exact h.fit
    | str => exact hf .str
    | switch => exact hf .switch
    | int => exact hf .int
    | file => exact hf .file
  · cases k with
    | double => exact h.size
    | str => exact hs .str
    | switch => exact hs .switch
    | int => exact hs .int
    | file => exact hs .file
  · have hz : arena'.length = own'.length := h.size
    rcases h.ledger with ⟨c, g, e⟩ | ⟨c, e⟩
    · rw [if_pos c]
      simp only [World.objects, hz, e, List.length_append, List.length_singleton]
      omega
    · rw [if_neg c]
      simp only [World.objects, hz, e]
      omega
  · cases k with
    | double => exact h.frame n hn
    | _ => exact .inl rfl
  · cases k with
    | double =>
      rcases h.ptrs g with e | ⟨e, e'⟩
      · exact .inl e
      · exact .inr ⟨e.imp id fun e => ⟨rfl, e⟩, e'⟩
    | _ => exact .inl rfl
  · rintro ⟨rfl, e⟩
    exact h.renew g e

theorem Part.file (hf : Fits' own x.h) (hs : Sized own x.st) {fresh : Prop} {anew : Str → Prop} {own' : List Str} {arena' : List (ArgObj Str D)} {m' : Map Nat}
    (h : Part (own .file) x.st.file x.h.fileArg fresh anew own' arena' m') :
    Goes own x fresh (fun k g => k = .file ∧ anew g) ⟨{ x.st with file := arena' }, { x.h with fileArg := m' }⟩ := by
  have hl : x.st.file.length = (own .file).length := hs .file
  refine ⟨⟨fun k => if k = .file then own' else own k, fun k => ?_, fun k => ?_, fun k => ?_⟩, ?_, fun k n hn => ?_, fun k g => ?_, fun k g => ?_⟩
  · by_cases c : k = .file
    · subst c
      simp only [if_true]
      rcases h.ledger with e | e
      · exact .inr e.2
      · exact .inl e.2
    · simp only [if_neg c]; exact .inl trivial
  · cases k with
    | file => exact h.fit
    | str => exact hf .str
    | switch => exact hf .switch
    | int => exact hf .int
    | double => exact hf .double
  · cases k with
    | file => exact h.size
    | str => exact hs .str
    | switch => exact hs .switch
    | int => exact hs .int
    | double => exact hs .double
  · have hz : arena'.length = own'.length := h.size
    rcases h.ledger with ⟨c, g, e⟩ | ⟨c, e⟩
    · rw [if_pos c]
      simp only [World.objects, hz, e, List.length_append, List.length_singleton]
      omega
    · rw [if_neg c]
      simp only [World.objects, hz, e]
      omega
  · cases k with
    | file => exact h.frame n hn
    | _ => exact .inl rfl
  · cases k with
    | file =>
      rcases h.ptrs g with e | ⟨e, e'⟩
      · exact .inl e
      · exact .inr ⟨e.imp id fun e => ⟨rfl, e⟩, e'⟩
    | _ => exact .inl rfl
  · rintro ⟨rfl, e⟩
    exact h.renew g e


/-- What a call does in memory: the outcome and the parser as seen are those of the call on values, and the rest is as in `Goes`. -/
structure Tells (own : ArgKind → List Str) (x : InMem D) (fresh : Prop) (anew : ArgKind → Str → Prop) (y : Left (InMem D)) (z : Left (Parser D)) : Prop where
  out : y.2 = z.2
  seen : y.1.seen = z.1
  goes : Goes own x fresh anew y.1

theorem Goes.congr {fresh fresh' : Prop} {anew anew' : ArgKind → Str → Prop} {y : InMem D} (h : Goes own x fresh anew y) (e : fresh ↔ fresh')
    (e' : ∀ k g, anew k g ↔ anew' k g) : Goes own x fresh' anew' y := by
  have := propext e
  subst this
  have : anew = anew' := by funext k g; exact propext (e' k g)
  subst this
  exact h

theorem Goes.same (hf : Fits' own x.h) (hs : Sized own x.st) {y : InMem D} (hst : y.st = x.st) (hm : ∀ k, y.h.map k = x.h.map k) :
    Goes own x False (fun _ _ => False) y := by
  obtain ⟨st, h⟩ := y
  simp only at hst hm
  subst hst
  exact (Quiet.values x.st hm).goes hf hs

/-- Nothing happened. -/
theorem Tells.none (hf : Fits' own x.h) (hs : Sized own x.st) {fresh : Prop} {anew : ArgKind → Str → Prop} (e : ¬ fresh) (e' : ∀ k g, ¬ anew k g) {r : Res Unit} :
    Tells own x fresh anew (x, r) (x.seen, r) :=
  ⟨rfl, rfl, (Goes.same hf hs rfl fun _ => rfl).congr ⟨False.elim, e⟩ fun k g => ⟨False.elim, e' k g⟩⟩

theorem tells_str (hf : Fits' own x.h) (hs : Sized own x.st) (flag : Str) (new : ArgObj Str D) (f : ArgObj Str D → Left (ArgObj Str D)) :
    Tells own x (¬ HasArg x.seen flag .str) (fun _ _ => False)
      (⟨{ x.st with str := (updArgH x.st.str x.h.strArg flag new f).1.1 }, { x.h with strArg := (updArgH x.st.str x.h.strArg flag new f).1.2 }⟩,
        (updArgH x.st.str x.h.strArg flag new f).2)
      ({ x.seen with strArg := (updArgL x.seen.strArg flag new f).1 }, (updArgL x.seen.strArg flag new f).2) := by
  have h1 : Fit (own .str) x.h.strArg := hf .str
  have hl : x.st.str.length = (own .str).length := hs .str
  obtain ⟨e1, e2, own', e3⟩ := updArgH_part h1 hl flag new f
  refine ⟨e1, ?_, (e3.str hf hs).congr ?_ fun k g => by simp⟩
  · simp only [InMem.seen] at e2 ⊢
    rw [e2]
  · show _ ↔ ¬ ((deref x.st.str x.h.strArg).get flag ≠ none)
    rw [h1.get_deref hl]
    constructor
    · intro h; simp [h]
    · intro h
      by_contra c
      obtain ⟨i, hi⟩ := Option.ne_none_iff_exists'.1 c
      obtain ⟨a, ha, -⟩ := h1.object hl hi
      exact h (by simp [hi, ha])

theorem tells_switch (hf : Fits' own x.h) (hs : Sized own x.st) (flag : Str) (new : ArgObj Str D) (f : ArgObj Str D → Left (ArgObj Str D)) :
    Tells own x (¬ HasArg x.seen flag .switch) (fun _ _ => False)
      (⟨{ x.st with switch := (updArgH x.st.switch x.h.switchArg flag new f).1.1 }, { x.h with switchArg := (updArgH x.st.switch x.h.switchArg flag new f).1.2 }⟩,
        (updArgH x.st.switch x.h.switchArg flag new f).2)
      ({ x.seen with switchArg := (updArgL x.seen.switchArg flag new f).1 }, (updArgL x.seen.switchArg flag new f).2) := by
  have h1 : Fit (own .switch) x.h.switchArg := hf .switch
  have hl : x.st.switch.length = (own .switch).length := hs .switch
  obtain ⟨e1, e2, own', e3⟩ := updArgH_part h1 hl flag new f
  refine ⟨e1, ?_, (e3.switch hf hs).congr ?_ fun k g => by simp⟩
  · simp only [InMem.seen] at e2 ⊢
    rw [e2]
  · show _ ↔ ¬ ((deref x.st.switch x.h.switchArg).get flag ≠ none)
    rw [h1.get_deref hl]
    constructor
    · intro h; simp [h]
    · intro h
      by_contra c
      obtain ⟨i, hi⟩ := Option.ne_none_iff_exists'.1 c
      obtain ⟨a, ha, -⟩ := h1.object hl hi
      exact h (by simp [hi, ha])

theorem tells_int (hf : Fits' own x.h) (hs : Sized own x.st) (flag : Str) (new : ArgObj Int D) (f : ArgObj Int D → Left (ArgObj Int D)) :
    Tells own x (¬ HasArg x.seen flag .int) (fun _ _ => False)
      (⟨{ x.st with int := (updArgH x.st.int x.h.intArg flag new f).1.1 }, { x.h with intArg := (updArgH x.st.int x.h.intArg flag new f).1.2 }⟩,
        (updArgH x.st.int x.h.intArg flag new f).2)
      ({ x.seen with intArg := (updArgL x.seen.intArg flag new f).1 }, (updArgL x.seen.intArg flag new f).2) := by
  have h1 : Fit (own .int) x.h.intArg := hf .int
  have hl : x.st.int.length = (own .int).length := hs .int
  obtain ⟨e1, e2, own', e3⟩ := updArgH_part h1 hl flag new f
  refine ⟨e1, ?_, (e3.int hf hs).congr ?_ fun k g => by simp⟩
  · simp only [InMem.seen] at e2 ⊢
    rw [e2]
  · show _ ↔ ¬ ((deref x.st.int x.h.intArg).get flag ≠ none)
    rw [h1.get_deref hl]
    constructor
    · intro h; simp [h]
    · intro h
      by_contra c
      obtain ⟨i, hi⟩ := Option.ne_none_iff_exists'.1 c
      obtain ⟨a, ha, -⟩ := h1.object hl hi
      exact h (by simp [hi, ha])

theorem tells_double (hf : Fits' own x.h) (hs : Sized own x.st) (flag : Str) (new : ArgObj D D) (f : ArgObj D D → Left (ArgObj D D)) :
    Tells own x (¬ HasArg x.seen flag .double) (fun _ _ => False)
      (⟨{ x.st with double := (updArgH x.st.double x.h.doubleArg flag new f).1.1 }, { x.h with doubleArg := (updArgH x.st.double x.h.doubleArg flag new f).1.2 }⟩,
        (updArgH x.st.double x.h.doubleArg flag new f).2)
      ({ x.seen with doubleArg := (updArgL x.seen.doubleArg flag new f).1 }, (updArgL x.seen.doubleArg flag new f).2) := by
  have h1 : Fit (own .double) x.h.doubleArg := hf .double
  have hl : x.st.double.length = (own .double).length := hs .double
  obtain ⟨e1, e2, own', e3⟩ := updArgH_part h1 hl flag new f
  refine ⟨e1, ?_, (e3.double hf hs).congr ?_ fun k g => by simp⟩
  · simp only [InMem.seen] at e2 ⊢
    rw [e2]
  · show _ ↔ ¬ ((deref x.st.double x.h.doubleArg).get flag ≠ none)
    rw [h1.get_deref hl]
    constructor
    · intro h; simp [h]
    · intro h
      by_contra c
      obtain ⟨i, hi⟩ := Option.ne_none_iff_exists'.1 c
      obtain ⟨a, ha, -⟩ := h1.object hl hi
      exact h (by simp [hi, ha])

theorem tells_file (hf : Fits' own x.h) (hs : Sized own x.st) (flag : Str) (new : ArgObj Str D) (f : ArgObj Str D → Left (ArgObj Str D)) :
    Tells own x (¬ HasArg x.seen flag .file) (fun _ _ => False)
      (⟨{ x.st with file := (updArgH x.st.file x.h.fileArg flag new f).1.1 }, { x.h with fileArg := (updArgH x.st.file x.h.fileArg flag new f).1.2 }⟩,
        (updArgH x.st.file x.h.fileArg flag new f).2)
      ({ x.seen with fileArg := (updArgL x.seen.fileArg flag new f).1 }, (updArgL x.seen.fileArg flag new f).2) := by
  have h1 : Fit (own .file) x.h.fileArg := hf .file
  have hl : x.st.file.length = (own .file).length := hs .file
  obtain ⟨e1, e2, own', e3⟩ := updArgH_part h1 hl flag new f
  refine ⟨e1, ?_, (e3.file hf hs).congr ?_ fun k g => by simp⟩
  · simp only [InMem.seen] at e2 ⊢
    rw [e2]
  · show _ ↔ ¬ ((deref x.st.file x.h.fileArg).get flag ≠ none)
    rw [h1.get_deref hl]
    constructor
    · intro h; simp [h]
    · intro h
      by_contra c
      obtain ⟨i, hi⟩ := Option.ne_none_iff_exists'.1 c
      obtain ⟨a, ha, -⟩ := h1.object hl hi
      exact h (by simp [hi, ha])

theorem tells_default (hf : Fits' own x.h) (hs : Sized own x.st) {h' : Handle D} (hm : ∀ k, h'.map k = x.h.map k) {r : Res Unit} {p : Parser D}
    (e : InMem.seen ⟨x.st, h'⟩ = p) : Tells own x False (fun _ _ => False) (⟨x.st, h'⟩, r) (p, r) :=
  ⟨rfl, e, Goes.same hf hs rfl hm⟩

theorem hasArg_iff (hf : Fits' own x.h) (hs : Sized own x.st) (f : Str) (k : ArgKind) : HasArg x.seen f k ↔ (x.h.map k).get f ≠ none := by
  have key : ∀ {A : Type} {own : List Str} {m : Map Nat} {arena : List A}, Fit own m → arena.length = own.length →
      ((deref arena m).get f ≠ none ↔ m.get f ≠ none) := by
    intro A own m arena h hl
    cases hg : m.get f with
    | none => simp [h.absent hl hg]
    | some i =>
      obtain ⟨a, -, ha⟩ := h.object hl hg
      rw [ha]; simp
  cases k with
  | str => exact key (hf .str) (hs .str)
  | switch => exact key (hf .switch) (hs .switch)
  | int => exact key (hf .int) (hs .int)
  | double => exact key (hf .double) (hs .double)
  | file => exact key (hf .file) (hs .file)

theorem Tells.congr {fresh fresh' : Prop} {anew anew' : ArgKind → Str → Prop} {y : Left (InMem D)} {z : Left (Parser D)} (h : Tells own x fresh anew y z)
    (e : fresh ↔ fresh') (e' : ∀ k g, anew k g ↔ anew' k g) : Tells own x fresh' anew' y z := ⟨h.out, h.seen, h.goes.congr e e'⟩

variable [Dbl D]

theorem tells_addFlagArg (hf : Fits' own x.h) (hs : Sized own x.st) (flag arg : Str) :
    Tells own x (∃ q, addFlagArg x.seen flag arg = .ok q) (Renews (.addFlagArg flag arg : Call D) (addFlagArgL x.seen flag arg).2) (addFlagArgH x flag arg)
      (addFlagArgL x.seen flag arg) := by
  have add : ∀ {y : InMem D} {q : Parser D}, y.seen = q → ∀ {anew : ArgKind → Str → Prop}, Goes own x True anew y → addFlagArg x.seen flag arg = .ok q →
      (∀ k g, anew k g ↔ arg = (lit "ARGUMENT_DOUBLE") ∧ k = .double ∧ g = flag) →
      Tells own x (∃ q, addFlagArg x.seen flag arg = .ok q) (Renews (.addFlagArg flag arg : Call D) (addFlagArgL x.seen flag arg).2) (y, .ok ()) (addFlagArgL x.seen flag arg) := by
    intro y q hy anew hg e ha
    have e2 : addFlagArgL x.seen flag arg = (q, .ok ()) := by unfold addFlagArgL; rw [e]
    rw [e2]
    refine ⟨rfl, hy, hg.congr ⟨fun _ => ⟨q, e⟩, fun _ => trivial⟩ fun k g => ?_⟩
    rw [ha k g]
    unfold Renews
    constructor
    · rintro ⟨rfl, rfl, rfl⟩; exact ⟨rfl, rfl, rfl⟩
    · rintro ⟨h, rfl, -⟩; cases h; exact ⟨rfl, rfl, rfl⟩
  have no : addFlagArg x.seen flag arg = .throw .invalidArgument →
      Tells own x (∃ q, addFlagArg x.seen flag arg = .ok q) (Renews (.addFlagArg flag arg : Call D) (addFlagArgL x.seen flag arg).2) (x, .throw .invalidArgument)
        (addFlagArgL x.seen flag arg) := by
    intro e
    have e2 : addFlagArgL x.seen flag arg = (x.seen, .throw .invalidArgument) := by unfold addFlagArgL; rw [e]; rfl
    rw [e2]
    refine .none hf hs ?_ ?_
    · rintro ⟨q, h⟩; rw [e] at h; cases h
    · rintro k g ⟨-, -, h⟩; cases h
  have ne : ∀ {s : Str}, arg = s → s ≠ (lit "ARGUMENT_DOUBLE") → ∀ k g, False ↔ arg = (lit "ARGUMENT_DOUBLE") ∧ k = ArgKind.double ∧ g = flag := by
    rintro s rfl h k g
    exact ⟨False.elim, fun h' => h h'.1⟩
  have here : ∀ {f : Str} {k : ArgKind} {i : Nat}, (x.h.map k).get f = some i → HasArg x.seen f k := fun h => (hasArg_iff hf hs _ _).2 (by rw [h]; simp)
  have gone : ∀ {f : Str} {k : ArgKind}, (x.h.map k).get f = none → ¬ HasArg x.seen f k := fun h h' => (hasArg_iff hf hs _ _).1 h' h
  unfold addFlagArgH
  by_cases c1 : arg = (lit "ARGUMENT_INT")
  · rw [if_pos c1]
    cases hg : x.h.intArg.get flag with
    | none =>
      have e0 : x.seen.intArg.get flag = none := by simpa [HasArg] using gone (k := .int) hg
      refine add (q := { x.seen with intArg := x.seen.intArg.set flag newArgumentInt }) ?_
        ((alloc_part (hf .int) (hs .int) flag newArgumentInt (fun _ => False) (fun _ h => h.elim) (.inl hg)).int hf hs) ?_ fun k g => ?_
      · simp only [InMem.seen]
        rw [Fit.deref_alloc (m := x.h.intArg) (hf .int) (hs .int)]
      · unfold addFlagArg; rw [if_pos c1, e0]
      · rw [← ne c1 (by decide) k g]; simp
    | some i =>
      obtain ⟨a, e0⟩ : ∃ a, x.seen.intArg.get flag = some a := Option.ne_none_iff_exists'.1 (here (k := .int) hg)
      exact no (by unfold addFlagArg; rw [if_pos c1, e0])
  rw [if_neg c1]
  by_cases c2 : arg = (lit "ARGUMENT_SWITCH")
  · rw [if_pos c2]
    cases hg : x.h.switchArg.get flag with
    | none =>
      have e0 : x.seen.switchArg.get flag = none := by simpa [HasArg] using gone (k := .switch) hg
      refine add (q := { x.seen with switchArg := x.seen.switchArg.set flag newArgumentSwitch }) ?_
        ((alloc_part (hf .switch) (hs .switch) flag newArgumentSwitch (fun _ => False) (fun _ h => h.elim) (.inl hg)).switch hf hs) ?_ fun k g => ?_
      · simp only [InMem.seen]
        rw [Fit.deref_alloc (m := x.h.switchArg) (hf .switch) (hs .switch)]
      · unfold addFlagArg; rw [if_neg c1, if_pos c2, e0]
      · rw [← ne c2 (by decide) k g]; simp
    | some i =>
      obtain ⟨a, e0⟩ : ∃ a, x.seen.switchArg.get flag = some a := Option.ne_none_iff_exists'.1 (here (k := .switch) hg)
      exact no (by unfold addFlagArg; rw [if_neg c1, if_pos c2, e0])
  rw [if_neg c2]
  by_cases c3 : arg = (lit "ARGUMENT_STRING")
  · rw [if_pos c3]
    cases hg : x.h.strArg.get flag with
    | none =>
      have e0 : x.seen.strArg.get flag = none := by simpa [HasArg] using gone (k := .str) hg
      refine add (q := { x.seen with strArg := x.seen.strArg.set flag newArgumentString }) ?_
        ((alloc_part (hf .str) (hs .str) flag newArgumentString (fun _ => False) (fun _ h => h.elim) (.inl hg)).str hf hs) ?_ fun k g => ?_
      · simp only [InMem.seen]
        rw [Fit.deref_alloc (m := x.h.strArg) (hf .str) (hs .str)]
      · unfold addFlagArg; rw [if_neg c1, if_neg c2, if_pos c3, e0]
      · rw [← ne c3 (by decide) k g]; simp
    | some i =>
      obtain ⟨a, e0⟩ : ∃ a, x.seen.strArg.get flag = some a := Option.ne_none_iff_exists'.1 (here (k := .str) hg)
      exact no (by unfold addFlagArg; rw [if_neg c1, if_neg c2, if_pos c3, e0])
  rw [if_neg c3]
  by_cases c4 : arg = (lit "ARGUMENT_FILE")
  · rw [if_pos c4]
    cases hg : x.h.fileArg.get flag with
    | none =>
      have e0 : x.seen.fileArg.get flag = none := by simpa [HasArg] using gone (k := .file) hg
      refine add (q := { x.seen with fileArg := x.seen.fileArg.set flag newArgumentFile }) ?_
        ((alloc_part (hf .file) (hs .file) flag newArgumentFile (fun _ => False) (fun _ h => h.elim) (.inl hg)).file hf hs) ?_ fun k g => ?_
      · simp only [InMem.seen]
        rw [Fit.deref_alloc (m := x.h.fileArg) (hf .file) (hs .file)]
      · unfold addFlagArg; rw [if_neg c1, if_neg c2, if_neg c3, if_pos c4, e0]
      · rw [← ne c4 (by decide) k g]; simp
    | some i =>
      obtain ⟨a, e0⟩ : ∃ a, x.seen.fileArg.get flag = some a := Option.ne_none_iff_exists'.1 (here (k := .file) hg)
      exact no (by unfold addFlagArg; rw [if_neg c1, if_neg c2, if_neg c3, if_pos c4, e0])
  rw [if_neg c4]
  by_cases c5 : arg = (lit "ARGUMENT_DOUBLE")
  · rw [if_pos c5]
    cases hg : x.h.fileArg.get flag with
    | none =>
      have e0 : x.seen.fileArg.get flag = none := by simpa [HasArg] using gone (k := .file) hg
      refine add (q := { x.seen with doubleArg := x.seen.doubleArg.set flag newArgumentDouble }) ?_
        ((alloc_part (hf .double) (hs .double) flag newArgumentDouble (fun g => g = flag) (fun _ h => h) (.inr rfl)).double hf hs) ?_ fun k g => ?_
      · simp only [InMem.seen]
        rw [Fit.deref_alloc (m := x.h.doubleArg) (hf .double) (hs .double)]
      · unfold addFlagArg; rw [if_neg c1, if_neg c2, if_neg c3, if_neg c4, if_pos c5, e0]
      · exact ⟨fun h => ⟨c5, h⟩, fun h => h.2⟩
    | some i =>
      obtain ⟨a, e0⟩ : ∃ a, x.seen.fileArg.get flag = some a := Option.ne_none_iff_exists'.1 (here (k := .file) hg)
      exact no (by unfold addFlagArg; rw [if_neg c1, if_neg c2, if_neg c3, if_neg c4, if_pos c5, e0])
  rw [if_neg c5]
  exact no (by unfold addFlagArg; rw [if_neg c1, if_neg c2, if_neg c3, if_neg c4, if_neg c5])

/-- What any call does. -/
theorem call_tells (hf : Fits' own x.h) (hs : Sized own x.st) (c : Call D) :
    Tells own x (Allocates x.seen c) (Renews c (c.onValue x.seen).2) (c.onMem x) (c.onValue x.seen) := by
  have nr : ∀ {c : Call D}, (∀ f a, c ≠ .addFlagArg f a) → ∀ k g, False ↔ Renews c (c.onValue x.seen).2 k g :=
    fun h k g => ⟨False.elim, fun e => h _ _ e.1⟩
  cases c with
  | addFlagArg flag arg => exact tells_addFlagArg hf hs flag arg
  | defaultInt flag v => exact (tells_default hf hs (h' := (setDefaultIntH x flag v).h) (fun _ => rfl) rfl).congr Iff.rfl (nr (by simp))
  | defaultSize flag v => exact (tells_default hf hs (h' := (setDefaultSizeH x flag v).h) (fun _ => rfl) rfl).congr Iff.rfl (nr (by simp))
  | defaultDouble flag v => exact (tells_default hf hs (h' := (setDefaultDoubleH x flag v).h) (fun _ => rfl) rfl).congr Iff.rfl (nr (by simp))
  | defaultStr flag v => exact (tells_default hf hs (h' := (setDefaultStrH x flag v).h) (fun _ => rfl) rfl).congr Iff.rfl (nr (by simp))
  | parse fs args =>
    obtain ⟨h1, h2, h3⟩ := parse_acts hf hs fs args
    exact (Tells.mk h1 h2 (h3.goes hf hs)).congr Iff.rfl (nr (by simp))
  | optInt flag arg pr op v =>
    simp only [Call.onMem, Call.onValue, setOptIntH, setOptIntL]
    by_cases c1 : arg = (lit "ARGUMENT_INT")
    · subst c1
      rw [if_pos rfl, if_pos rfl]
      exact (tells_int hf hs flag _ _).congr (by simp [Allocates]) (nr (by simp))
    rw [if_neg c1, if_neg c1]
    by_cases c2 : arg = (lit "ARGUMENT_STRING")
    · subst c2
      rw [if_pos rfl, if_pos rfl]
      exact (tells_str hf hs flag _ _).congr (by simp [Allocates]) (nr (by simp))
    rw [if_neg c2, if_neg c2]
    by_cases c3 : arg = (lit "ARGUMENT_SWITCH")
    · subst c3
      rw [if_pos rfl, if_pos rfl]
      exact (tells_switch hf hs flag _ _).congr (by simp [Allocates]) (nr (by simp))
    rw [if_neg c3, if_neg c3]
    by_cases c4 : arg = (lit "ARGUMENT_FILE")
    · subst c4
      rw [if_pos rfl, if_pos rfl]
      exact (tells_file hf hs flag _ _).congr (by simp [Allocates]) (nr (by simp))
    rw [if_neg c4, if_neg c4]
    refine .none hf hs ?_ ?_
    · intro h; simp only [Allocates] at h; tauto
    · rintro k g ⟨h, -⟩; cases h
  | optDouble flag arg pr op v =>
    simp only [Call.onMem, Call.onValue, setOptDoubleH, setOptDoubleL]
    by_cases c1 : arg = (lit "ARGUMENT_DOUBLE")
    · subst c1
      rw [if_pos rfl, if_pos rfl]
      exact (tells_double hf hs flag _ _).congr (by simp [Allocates]) (nr (by simp))
    rw [if_neg c1, if_neg c1]
    by_cases c2 : arg = (lit "ARGUMENT_STRING")
    · subst c2
      rw [if_pos rfl, if_pos rfl]
      exact (tells_str hf hs flag _ _).congr (by simp [Allocates]) (nr (by simp))
    rw [if_neg c2, if_neg c2]
    refine .none hf hs ?_ ?_
    · intro h; simp only [Allocates] at h; tauto
    · rintro k g ⟨h, -⟩; cases h
  | optStr flag arg pr op v =>
    simp only [Call.onMem, Call.onValue, setOptStrH, setOptStrL]
    by_cases c1 : arg = (lit "ARGUMENT_FILE")
    · subst c1
      rw [if_pos rfl, if_pos rfl]
      have e0 : (x.seen.fileArg.get flag).isNone = (x.h.fileArg.get flag).isNone := by
        have h1 := hasArg_iff hf hs flag .file
        simp only [HasArg, Handle.map] at h1
        cases h2 : x.h.fileArg.get flag with
        | none =>
          rw [h2] at h1
          cases h3 : x.seen.fileArg.get flag with
          | none => rfl
          | some a => rw [h3] at h1; exact absurd rfl (h1.1 (by simp))
        | some i =>
          rw [h2] at h1
          cases h3 : x.seen.fileArg.get flag with
          | none => rw [h3] at h1; exact absurd rfl (h1.2 (by simp))
          | some a => rfl
      rw [e0]
      exact (tells_file hf hs flag _ _).congr (by simp [Allocates]) fun k g => ⟨False.elim, fun h => by cases h.1⟩
    rw [if_neg c1, if_neg c1]
    by_cases c2 : arg = (lit "ARGUMENT_SWITCH")
    · subst c2
      rw [if_pos rfl, if_pos rfl]
      exact (tells_switch hf hs flag _ _).congr (by simp [Allocates]) (nr (by simp))
    rw [if_neg c2, if_neg c2]
    by_cases c3 : arg = (lit "ARGUMENT_STRING")
    · subst c3
      rw [if_pos rfl, if_pos rfl]
      exact (tells_str hf hs flag _ _).congr (by simp [Allocates]) (nr (by simp))
    rw [if_neg c3, if_neg c3]
    refine .none hf hs ?_ ?_
    · intro h; simp only [Allocates] at h; tauto
    · rintro k g ⟨h, -⟩; cases h
  | optSet flag arg pr op v =>
    simp only [Call.onMem, Call.onValue, setOptSetH, setOptSetL]
    by_cases c1 : arg = (lit "ARGUMENT_FILE")
    · subst c1
      rw [if_pos rfl, if_pos rfl]
      exact (tells_file hf hs flag _ _).congr (by simp [Allocates]) (nr (by simp))
    rw [if_neg c1, if_neg c1]
    by_cases c2 : arg = (lit "ARGUMENT_STRING")
    · subst c2
      rw [if_pos rfl, if_pos rfl]
      exact (tells_str hf hs flag _ _).congr (by simp [Allocates]) (nr (by simp))
    rw [if_neg c2, if_neg c2]
    refine .none hf hs ?_ ?_
    · intro h; simp only [Allocates] at h; tauto
    · rintro k g ⟨h, -⟩; cases h
  | optVec flag arg pr op v =>
    simp only [Call.onMem, Call.onValue, setOptVecH, setOptVecL]
    by_cases c1 : arg = (lit "ARGUMENT_FILE")
    · subst c1
      rw [if_pos rfl, if_pos rfl]
      exact (tells_file hf hs flag _ _).congr (by simp [Allocates]) (nr (by simp))
    rw [if_neg c1, if_neg c1]
    refine .none hf hs ?_ ?_
    · intro h; simp only [Allocates] at h; tauto
    · rintro k g ⟨h, -⟩; cases h

end
end Verif.Args
