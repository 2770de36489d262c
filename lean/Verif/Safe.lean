import Verif.LogReader
import Verif.PunReader
import Verif.Props.MatrixA
/-
Reading files never runs into undefined behaviour, and what the readers hold afterwards is well formed. No assumption is made about
the contents of the files.
-/
namespace Verif
open Strings

/-- No undefined behaviour, and if a result is returned it satisfies `P`. -/
def Safe {β : Type} (P : β → Prop) (x : Res β) : Prop := x ≠ .ub ∧ ∀ a, x = .ok a → P a

namespace Safe
variable {β γ : Type} {P : β → Prop} {Q : γ → Prop}

theorem ok {a : β} (h : P a) : Safe P (.ok a) := ⟨by simp, fun b hb => by cases hb; exact h⟩
theorem throw (e : Exn) : Safe P (.throw e) := ⟨by simp, fun b hb => by cases hb⟩
theorem exit (c : Int) : Safe P (.exit c) := ⟨by simp, fun b hb => by cases hb⟩
theorem diverge : Safe P .diverge := ⟨by simp, fun b hb => by cases hb⟩

theorem bind {x : Res β} {f : β → Res γ} (hx : Safe P x) (hf : ∀ a, P a → Safe Q (f a)) : Safe Q (x >>= f) := by
  cases x with
  | ok a => exact hf a (hx.2 a rfl)
  | ub => exact absurd rfl hx.1
  | throw e => exact throw e
  | exit c => exact exit c
  | diverge => exact diverge

theorem mono {x : Res β} {P' : β → Prop} (hx : Safe P x) (h : ∀ a, P a → P' a) : Safe P' x := ⟨hx.1, fun a ha => h a (hx.2 a ha)⟩

theorem any {x : Res β} (h : x ≠ .ub) : Safe (fun _ => True) x := ⟨h, fun _ _ => trivial⟩

theorem ite {c : Prop} [Decidable c] {x y : Res β} (hx : c → Safe P x) (hy : ¬ c → Safe P y) : Safe P (if c then x else y) := by
  split
  · exact hx (by assumption)
  · exact hy (by assumption)

theorem foldlM {ι : Type} {f : β → ι → Res β} (hf : ∀ a i, P a → Safe P (f a i)) : ∀ (l : List ι) (a : β), P a → Safe P (l.foldlM f a)
  | [], a, h => .ok h
  | i :: l, a, h => by rw [List.foldlM_cons]; exact (hf a i h).bind fun a' h' => foldlM hf l a' h'

theorem forRange {f : β → Int → Res β} (hf : ∀ a i, P a → Safe P (f a i)) (lo hi : Int) (a : β) (h : P a) :
    Safe P (forRange lo hi a f) := foldlM hf _ a h

end Safe

namespace Mat
variable {α : Type}

/-- A well-formed `r × c` matrix with one shelf. -/
def Sized (r c : Int) (m : Mat α) : Prop := WF m ∧ m.rows = r ∧ m.cols = c ∧ m.shel = 1

theorem Sized.isMat {r c : Int} {m : Mat α} (h : Sized r c m) : ∃ f, IsMat m r c 1 f := by
  obtain ⟨f, hf⟩ := h.1.exists_isMat
  rw [h.2.1, h.2.2.1, h.2.2.2] at hf
  exact ⟨f, hf⟩

theorem Sized.pos {r c : Int} {m : Mat α} (h : Sized r c m) : 1 ≤ r ∧ 1 ≤ c := ⟨by rw [← h.2.1]; exact h.1.rows1, by rw [← h.2.2.1]; exact h.1.cols1⟩

theorem IsMat.sized {r c : Int} {m : Mat α} {f} (h : IsMat m r c 1 f) (hr : 1 ≤ r) (hc : 1 ≤ c) : Sized r c m :=
  ⟨h.wf hr hc (by omega), h.rows, h.cols, h.shel⟩

theorem mk2_safe [Zero α] (r c : Int) : Safe (Sized r c) (mk2 r c : Res (Mat α)) := by
  by_cases h : 1 ≤ r ∧ 1 ≤ c
  · obtain ⟨m, hm, hi⟩ := mk2_isMat (α := α) h.1 h.2
    rw [hm]; exact .ok (hi.sized h.1 h.2)
  · unfold mk2
    by_cases h1 : r < 1
    · rw [if_pos h1]; exact .exit _
    · rw [if_neg h1, if_pos (by omega)]; exact .exit _

theorem setElem2_safe {r c : Int} {m : Mat α} (h : Sized r c m) (v : α) (i j : Int) : Safe (Sized r c) (m.setElem2 v i j) := by
  obtain ⟨f, hf⟩ := h.isMat
  obtain ⟨p1, p2⟩ := h.pos
  by_cases hi : 1 ≤ i ∧ i ≤ r ∧ 1 ≤ j ∧ j ≤ c
  · obtain ⟨m', e, hm⟩ := hf.set2 (by omega) hi.1 hi.2.1 hi.2.2.1 hi.2.2.2 v
    rw [e]; exact .ok (hm.sized p1 p2)
  · rw [set2_exit v (by rw [h.2.1, h.2.2.1]; exact hi)]; exact .exit _

theorem getElem2_safe {r c : Int} {m : Mat α} (h : Sized r c m) (i j : Int) : Safe (fun _ => True) (m.getElem2 i j) := by
  obtain ⟨f, hf⟩ := h.isMat
  rw [hf.get2_eq (by omega)]
  exact .ite (fun _ => .ok trivial) (fun _ => .exit _)

end Mat

namespace Readers
open Mat
variable {α : Type} [Mul α] [Num α]

theorem substr_safe (s : Str) (p l : Nat) : Safe (fun _ => True) (substr s p l) := by
  unfold substr; split <;> exact .any (by simp)

theorem vecAt_safe {β : Type} (l : List β) (i : Int) : Safe (fun _ => True) (vecAt l i) := by
  unfold vecAt; split
  · exact .any (by simp)
  · split <;> exact .any (by simp)

theorem stoi_safe (s : Str) : Safe (fun _ => True) (stoi s) := by
  unfold stoi; split
  · exact .any (by simp)
  · split <;> exact .any (by simp)

omit [Mul α] in
theorem stod_safe (s : Str) : Safe (fun _ => True) (Num.stod s : Res α) := by
  rcases Num.stod_cases (α := α) s with ⟨v, h⟩ | ⟨e, h⟩ <;> rw [h] <;> exact .any (by simp)

theorem grabBefore_safe (a b : Str) : Safe (fun _ => True) (grabStrBeforeFirstOccurance a b) := by
  unfold grabStrBeforeFirstOccurance
  split
  · exact .ok trivial
  · exact substr_safe _ _ _

theorem grabAfter_safe (a b : Str) : Safe (fun _ => True) (grabStrAfterFirstOccurance a b) := by
  unfold grabStrAfterFirstOccurance
  split
  · exact .ok trivial
  · exact substr_safe _ _ _

theorem fortran_safe (s : Str) : Safe (fun _ => True) (fortran s : Res α) :=
  (grabBefore_safe _ _).bind fun _ _ => (grabAfter_safe _ _).bind fun _ _ => (stod_safe _).bind fun _ _ =>
    (stod_safe _).bind fun _ _ => .ok trivial

theorem pushBack_safe {β : Type} {f : Str → Res β} (hf : ∀ s, Safe (fun _ => True) (f s)) (acc : List β) (s : Str) :
    Safe (fun _ => True) (pushBack f acc s) := (hf s).bind fun _ _ => .ok trivial

theorem restOf_safe {β : Type} {P : β → Prop} {body : β → Str → Res β} (hb : ∀ a s, P a → Safe P (body a s)) (iss : Stream) (acc : β)
    (h : P acc) : Safe P (restOf body iss acc) := by
  have key : ∀ n (iss : Stream) (acc : β), P acc → Safe P (restLoop body n iss acc) := by
    intro n
    induction n with
    | zero => intro iss acc _; exact .diverge
    | succ n ih =>
      intro iss acc h
      rw [restLoop]
      exact .ite (fun _ => .ok h) (fun _ => (hb _ _ h).bind fun a ha => ih _ a ha)
  exact key _ iss acc h

theorem splitItemLoop_safe (n : Nat) (s : Str) (p : Option Nat) (acc : List Str) : Safe (fun _ => True) (splitItemLoop n s p acc) := by
  induction n generalizing s p acc with
  | zero => exact .diverge
  | succ n ih =>
    cases p with
    | none => exact .ok trivial
    | some pos =>
      rw [splitItemLoop]
      refine (substr_safe _ _ _).bind fun t _ => .ite (fun _ => ?_) (fun _ => ih _ _ _)
      simp only []
      split
      · exact ih _ _ _
      · exact (substr_safe _ _ _).bind fun t _ => ih _ _ _

theorem splitStEnergies_safe (line : Str) : Safe (fun _ => True) (splitStEnergies line) := by
  have key : ∀ (items : List Str) (inc : Nat) (acc : List Str), Safe (fun _ => True) (splitItems inc items acc) := by
    intro items
    induction items with
    | nil => intro inc acc; exact .ok trivial
    | cons s items ih =>
      intro inc acc
      rw [splitItems]
      refine .ite (fun _ => ih _ _) (fun _ => ?_)
      split
      · exact ih _ _
      · exact (splitItemLoop_safe _ _ _ _).bind fun _ _ => ih _ _
  unfold splitStEnergies
  exact .ite (fun _ => .ok trivial) (fun _ => key _ _ _)

/-! ### the sections of a log file -/

/-- The overlap matrix held by the reader, if any, is a well-formed square matrix. -/
def GoodS (d : LogData α) : Prop := ∀ m, d.S = some m → ∃ n, Sized n n m

/-- The coordinates held by the reader, if any, are those of a list of positions. -/
def GoodX (d : LogData α) : Prop :=
  d.xyz = [] ∨ ∃ rows : List (α × α × α), d.xyz = [rows.map (·.1), rows.map (·.2.1), rows.map (·.2.2)]

/-- Nothing else is written by the other readers. -/
def Good (r : FR (LogData α)) : Prop := GoodS r.data ∧ GoodX r.data

section
omit [Mul α]

theorem aoRows_safe (atom : Int) (el : Str) (fuel : Nat) (r : FR (LogData α)) (line e2 o : Str) (h : Good r) :
    Safe (fun x => Good x.1) (aoRows atom el fuel r line e2 o) := by
  induction fuel generalizing r line e2 o with
  | zero => exact .diverge
  | succ n ih =>
    rw [aoRows]
    refine .ite (fun _ => .ok h) (fun _ => ?_)
    refine (restOf_safe (P := fun _ => True) (fun a s _ => pushBack_safe stod_safe a s) _ _ trivial).bind fun vals _ => ?_
    simp only []
    exact .ite (fun _ => .ok h) (fun _ => ih _ _ _ _ h)

theorem aoAtoms_safe (fuel : Nat) (atom : Int) (r : FR (LogData α)) (line : Str) (h : Good r) :
    Safe Good (aoAtoms fuel atom r line) := by
  induction fuel generalizing atom r line with
  | zero => exact .diverge
  | succ n ih =>
    rw [aoAtoms]
    refine (restOf_safe (P := fun _ => True) (fun a s _ => pushBack_safe stod_safe a s) _ _ trivial).bind fun vals _ => ?_
    refine (vecAt_safe _ _).bind fun c9 _ => (vecAt_safe _ _).bind fun c10 _ => ?_
    refine Safe.bind (P := fun x => Good x.1) (aoRows_safe _ _ _ _ _ _ _ (by exact h)) fun x hx => ?_
    exact .ite (fun _ => .ok hx) (fun _ => ih _ _ _ hx)

theorem coordLoop_safe (fuel : Nat) (fid : Stream) (line : Str) (X Y Z : List α) :
    (∃ rows : List (α × α × α), X = rows.map (·.1) ∧ Y = rows.map (·.2.1) ∧ Z = rows.map (·.2.2)) →
    Safe (fun r => ∃ rows : List (α × α × α), r.2.1 = rows.map (·.1) ∧ r.2.2.1 = rows.map (·.2.1) ∧ r.2.2.2 = rows.map (·.2.2))
      (coordLoop fuel fid line X Y Z) := by
  induction fuel generalizing fid line X Y Z with
  | zero => intro _; exact .diverge
  | succ n ih =>
    intro h
    rw [coordLoop]
    refine .ite (fun _ => .ok h) (fun _ => ?_)
    refine (vecAt_safe _ _).bind fun _ _ => (stod_safe _).bind fun x _ => (vecAt_safe _ _).bind fun _ _ => (stod_safe _).bind fun y _ =>
      (vecAt_safe _ _).bind fun _ _ => (stod_safe _).bind fun z _ => ih _ _ _ _ _ ?_
    obtain ⟨rows, rfl, rfl, rfl⟩ := h
    exact ⟨rows ++ [(x, y, z)], by simp, by simp, by simp⟩

theorem pushEnergies_S (orbType : Str) (occ : Bool) (v : List Str) (d : LogData α) : (pushEnergies orbType occ v d).S = d.S := by
  induction v generalizing d with
  | nil => rfl
  | cons s v ih => rw [pushEnergies, ih]

theorem pushEnergies_xyz (orbType : Str) (occ : Bool) (v : List Str) (d : LogData α) : (pushEnergies orbType occ v d).xyz = d.xyz := by
  induction v generalizing d with
  | nil => rfl
  | cons s v ih => rw [pushEnergies, ih]

theorem energiesLoop_safe (orbType : Str) (fuel : Nat) (r : FR (LogData α)) (line : Str) (h : Good r) :
    Safe Good (energiesLoop orbType fuel r line) := by
  induction fuel generalizing r line with
  | zero => exact .diverge
  | succ n ih =>
    rw [energiesLoop]
    refine .ite (fun _ => .ok h) (fun _ => .ite (fun _ => ?_) (fun _ => .ok h))
    refine (splitStEnergies_safe _).bind fun v _ => ih _ _ ?_
    unfold Good GoodS GoodX at h ⊢
    simp only [pushEnergies_S, pushEnergies_xyz]
    exact h

end

theorem overlapFirst_safe (fuel : Nat) (fid : Stream) (line cC : Str) (cnt : Int) (acc : List (List α)) :
    Safe (fun _ => True) (overlapFirst fuel fid line cC cnt acc) := by
  induction fuel generalizing fid line cC cnt acc with
  | zero => exact .diverge
  | succ n ih =>
    rw [overlapFirst]
    refine (stoi_safe _).bind fun i _ => .ite (fun _ => .ok trivial) (fun _ => ?_)
    exact (restOf_safe (P := fun _ => True) (fun a s _ => pushBack_safe fortran_safe a s) _ _ trivial).bind fun row _ => ih _ _ _ _ _

section
omit [Mul α] [Num α]

theorem overlapSetRow_safe {n : Int} (rowInd colInd : Int) (row : List α) (m : Mat α) (h : Sized n n m) :
    Safe (Sized n n) (overlapSetRow rowInd colInd row m) := by
  induction row generalizing colInd m with
  | nil => exact .ok h
  | cons v row ih =>
    rw [overlapSetRow]
    refine (setElem2_safe h _ _ _).bind fun m1 h1 => ?_
    exact .ite (fun _ => (setElem2_safe h1 _ _ _).bind fun m2 h2 => ih _ _ h2) (fun _ => ih _ _ h1)

theorem overlapSetRows_safe {n : Int} (rowInd : Int) (rows : List (List α)) (m : Mat α) (h : Sized n n m) :
    Safe (Sized n n) (overlapSetRows rowInd rows m) := by
  induction rows generalizing rowInd m with
  | nil => exact .ok h
  | cons row rows ih => rw [overlapSetRows]; exact (overlapSetRow_safe _ _ _ _ h).bind fun m1 h1 => ih _ _ h1

end

theorem overlapCoef_safe {n : Int} (start sc : Int) (st : Mat α × Int) (s : Str) (h : Sized n n st.1) :
    Safe (fun r => Sized n n r.1) (overlapCoef start sc st s) := by
  unfold overlapCoef
  refine (fortran_safe _).bind fun v _ => (setElem2_safe h _ _ _).bind fun m hm => ?_
  exact .ite (fun _ => (setElem2_safe hm _ _ _).bind fun m2 h2 => .ok h2) (fun _ => .ok hm)

theorem overlapBlock_safe {n : Int} (start : Int) (k : Nat) (sc : Int) (fid : Stream) (line : Str) (m : Mat α) (h : Sized n n m) :
    Safe (fun r => Sized n n r.2.2) (overlapBlock start k sc fid line m) := by
  induction k generalizing sc fid line m with
  | zero => exact .ok h
  | succ k ih =>
    rw [overlapBlock]
    exact (restOf_safe (P := fun r : Mat α × Int => Sized n n r.1) (fun a s ha => overlapCoef_safe _ _ _ _ ha) _ _ h).bind
      fun r hr => ih _ _ _ _ hr

theorem overlapBlocks_safe {n : Int} (cnt : Int) (k : Nat) (start : Int) (fid : Stream) (line : Str) (m : Mat α) (h : Sized n n m) :
    Safe (fun r => Sized n n r.2) (overlapBlocks cnt k start fid line m) := by
  induction k generalizing start fid line m with
  | zero => exact .ok h
  | succ k ih =>
    rw [overlapBlocks]
    exact (overlapBlock_safe _ _ _ _ _ _ h).bind fun r hr => ih _ _ _ _ hr

variable [Zero α]

theorem overlapReader_safe (fuel : Nat) (r : FR (LogData α)) (h : Good r) : Safe Good (overlapReader fuel r) := by
  unfold overlapReader
  refine (overlapFirst_safe _ _ _ _ _ _).bind fun x _ => ?_
  refine (mk2_safe _ _).bind fun m hm => (overlapSetRows_safe _ _ _ hm).bind fun m hm => ?_
  refine (overlapBlocks_safe _ _ _ _ _ _ hm).bind fun y hy => .ok ⟨?_, h.2⟩
  intro m' hm'
  simp only [Option.some.injEq] at hm'
  subst hm'
  exact ⟨_, hy⟩

/-- If every section reader keeps `P` and none runs into undefined behaviour, so does reading the file. -/
theorem read_safe {σ : Type} (s : Sections σ) (P : σ → Prop)
    (hs : ∀ tag ∈ s.headers.map (·.1), tag ≠ [] → ∃ f, s.readers.get tag = some f ∧ ∀ fuel r, P r.data → Safe (fun r => P r.data) (f fuel r))
    (fs : Str → Option Str) (name : Str) (fuel : Nat) (d : σ) (hd : P d) : Safe P (read s fs name fuel d) := by
  have hsec : ∀ fuel (r : FR σ) line, startSection s.headers line ≠ [] → P r.data →
      Safe (fun r => P r.data) (readSection s fuel (startSection s.headers line) r) := by
    intro fuel r line ht h
    have hm : startSection s.headers line ∈ s.headers.map (·.1) := by
      unfold startSection at ht ⊢
      split at ht
      · rename_i th hth
        exact List.mem_map.2 ⟨th, List.mem_of_find?_eq_some hth, rfl⟩
      · exact absurd rfl ht
    obtain ⟨f, hf, hsafe⟩ := hs _ hm ht
    unfold readSection
    rw [hf]
    exact hsafe _ _ h
  have key : ∀ fuel (r : FR σ) line, P r.data → Safe (fun r => P r.data) (readLoop s fuel r line) := by
    intro fuel
    induction fuel with
    | zero => intro r line _; exact .diverge
    | succ n ih =>
      intro r line h
      rw [readLoop]
      refine .ite (fun _ => .ok h) (fun _ => ?_)
      refine .ite (fun ht => ?_) (fun _ => ih _ _ h)
      refine Safe.bind (P := fun r : FR σ => P r.data) ?_ fun r hr => ih _ _ hr
      exact hsec _ _ _ ht h
  unfold read
  split
  · exact .throw _
  · exact (key _ _ _ hd).bind fun r hr => .ok hr

theorem fileExt_safe (name : Str) : Safe (fun _ => True) (fileExt name) := by
  unfold fileExt lastStringInPath
  have : ∀ n s, Safe (fun _ => True) (lastStringLoop n s) := by
    intro n
    induction n with
    | zero => intro s; exact .diverge
    | succ n ih =>
      intro s
      rw [lastStringLoop]
      split
      · exact .ok trivial
      · exact (substr_safe _ _ _).bind fun _ _ => ih _
  refine (this _ _).bind fun p _ => ?_
  simp only []
  split
  · exact .throw _
  · exact substr_safe _ _ _

theorem checkSections_safe {σ : Type} (s : Sections σ) : Safe (fun _ => True) (checkSections s) := by
  unfold checkSections
  exact .ite (fun _ => .throw _) (fun _ => .ok trivial)

/-- Constructing a `LogReader` and reading never runs into undefined behaviour; the overlap matrix held afterwards is well formed,
and the coordinates are those of a list of positions. -/
theorem readLog_shape (fs : Str → Option Str) (fuel : Nat) (name : Str) : Safe (fun d => GoodS d ∧ GoodX d) (readLog fs fuel name : Res (LogData α)) := by
  unfold readLog
  refine Safe.bind (P := fun _ => True) ?_ fun _ _ => ?_
  · unfold logReaderNew
    exact (fileExt_safe _).bind fun e _ => .ite (fun _ => .throw _) (fun _ => checkSections_safe _)
  refine read_safe _ (fun d => GoodS d ∧ GoodX d) ?_ fs name fuel _ ⟨(by intro m hm; cases hm), .inl rfl⟩
  have step : ∀ f : SectionReader (LogData α), (f = aoReader ∨ f = coordReader ∨ f = alphaReader ∨ f = betaReader ∨ f = overlapReader) →
      ∀ fuel r, GoodS r.data ∧ GoodX r.data → Safe (fun r => GoodS r.data ∧ GoodX r.data) (f fuel r) := by
    rintro f (rfl | rfl | rfl | rfl | rfl) fuel r h
    · exact aoAtoms_safe _ _ _ _ h
    · refine (coordLoop_safe _ _ _ _ _ _ ⟨[], rfl, rfl, rfl⟩).bind fun x hx => .ok ⟨h.1, ?_⟩
      obtain ⟨rows, e1, e2, e3⟩ := hx
      exact .inr ⟨rows, by rw [← e1, ← e2, ← e3]⟩
    · exact Safe.bind (energiesLoop_safe (lit "Alpha") _ _ _ (by exact h)) fun x hx => .ok hx
    · exact Safe.bind (energiesLoop_safe (lit "Beta") _ _ _ (by exact h)) fun x hx => .ok hx
    · exact overlapReader_safe _ _ h
  intro tag ht _
  simp only [logSections, List.map_cons, List.map_nil, List.mem_cons, List.not_mem_nil, or_false] at ht
  rcases ht with rfl | rfl | rfl | rfl | rfl
  · exact ⟨_, rfl, step _ (.inl rfl)⟩
  · exact ⟨_, rfl, step _ (.inr (.inl rfl))⟩
  · exact ⟨_, rfl, step _ (.inr (.inr (.inl rfl)))⟩
  · exact ⟨_, rfl, step _ (.inr (.inr (.inr (.inl rfl))))⟩
  · exact ⟨_, rfl, step _ (.inr (.inr (.inr (.inr rfl))))⟩

/-- Constructing a `LogReader` and reading never runs into undefined behaviour; the overlap matrix held afterwards is well formed. -/
theorem readLog_safe (fs : Str → Option Str) (fuel : Nat) (name : Str) : Safe GoodS (readLog fs fuel name : Res (LogData α)) :=
  (readLog_shape fs fuel name).mono fun _ h => h.1

/-! ### pun files -/

omit [Zero α]

/-- A matrix with at least one row whose elements are all set; it may have no columns. -/
def Loose (m : Mat α) : Prop := Init m ∧ 1 ≤ m.rows ∧ m.shel = 1

/-- All coefficient matrices held are of this kind. -/
def GoodP (d : PunData α) : Prop := ∀ k m, d.get k = some m → Loose m

theorem gausLoop_safe (line : Str) (fuel indent : Nat) (vals : List α) : Safe (fun _ => True) (gausLoop line fuel indent vals) := by
  induction fuel generalizing indent vals with
  | zero => exact .diverge
  | succ n ih =>
    rw [gausLoop]
    refine .ite (fun _ => ?_) (fun _ => .ok trivial)
    exact (substr_safe _ _ _).bind fun _ _ => (stod_safe _).bind fun _ _ => (substr_safe _ _ _).bind fun _ _ =>
      (stod_safe _).bind fun _ _ => ih _ _

theorem rowLoop_safe (b : Bool) (count fuel : Nat) (fid : Stream) (line : Str) (row : List α) :
    Safe (fun _ => True) (rowLoop b count fuel fid line row) := by
  induction fuel generalizing fid line row with
  | zero => exact .diverge
  | succ n ih =>
    rw [rowLoop]
    refine .ite (fun _ => .ok trivial) (fun _ => .ite (fun _ => .ok trivial) (fun _ => ?_))
    exact (gausLoop_safe _ _ _ _).bind fun _ _ => ih _ _ _

theorem coefLoop_safe (orbType : Str) (fuel : Nat) (b : Bool) (count : Nat) (fid : Stream) (vv : List (List α)) :
    Safe (fun r => r.2 ≠ []) (coefLoop orbType fuel b count fid vv) := by
  induction fuel generalizing b count fid vv with
  | zero => exact .diverge
  | succ n ih =>
    rw [coefLoop]
    refine (rowLoop_safe _ _ _ _ _ _).bind fun x _ => ?_
    exact .ite (fun _ => .ok (by simp)) (fun _ => ih _ _ _ _)

omit [Mul α] [Num α] in
theorem ofVecVec_safe (vv : List (List α)) : Safe Loose (Mat.ofVecVec vv) := by
  obtain ⟨h1, h2, h3⟩ := C04_ofVecVec vv
  cases vv with
  | nil => rw [h1 rfl]; exact .throw _
  | cons v vs =>
    by_cases h : ∀ w ∈ v :: vs, w.length = v.length
    · obtain ⟨m, e, hi, hr, -, hs, -⟩ := h3 v rfl h
      rw [e]; exact .ok ⟨hi, by rw [hr, List.length_cons]; omega, hs⟩
    · rw [h2 v rfl (by simpa using h)]; exact .throw _

/-- Constructing a `PunReader` and reading never runs into undefined behaviour. -/
theorem readPun_safe (fs : Str → Option Str) (fuel : Nat) (name : Str) : Safe GoodP (readPun fs fuel name : Res (PunData α)) := by
  unfold readPun
  refine Safe.bind (P := fun _ => True) ?_ fun _ _ => ?_
  · unfold punReaderNew
    exact (fileExt_safe _).bind fun e _ => .ite (fun _ => .throw _) (fun _ => checkSections_safe _)
  refine read_safe _ GoodP ?_ fs name fuel _ (by intro k m hm; cases hm)
  have step : ∀ orbType fuel (r : FR (PunData α)), GoodP r.data → Safe (fun r => GoodP r.data) (readCoef orbType fuel r) := by
    intro orbType fuel r h
    unfold readCoef
    refine (coefLoop_safe _ _ _ _ _ _).bind fun x _ => (ofVecVec_safe _).bind fun m hm => .ok ?_
    intro k m' hk
    simp only [Map.get_set] at hk
    split at hk
    · cases hk; exact hm
    · exact h k m' hk
  intro tag ht _
  simp only [punSections, List.map_cons, List.map_nil, List.mem_cons, List.not_mem_nil, or_false] at ht
  rcases ht with rfl | rfl
  · exact ⟨_, rfl, step _⟩
  · exact ⟨_, rfl, step _⟩

end Readers
end Verif
