import Verif.HeapJob
import Verif.Props.Heap
import Verif.Props.Unscramble
/-
The calculation on objects and heap (`Verif.HeapJob`) and on values (`Verif.QC`) go the same way.
-/
namespace Verif.Heap
variable {α : Type}

/-- A buffer that was deleted. -/
def Cell.isFreed : Cell α → Bool
  | .freed => true
  | _ => false

/-- What is known of the objects in the course of the calculation: every object has its buffer; `n` buffers were made and `f` deleted so
far; the objects in `O` and `E` are these matrices, and those in `O` share their buffer with no other object. -/
structure Good (st : St α) (n f : Nat) (O E : List (Nat × Mat α)) : Prop where
  alive : ∀ o ∈ st.objs, ∃ b, st.heap[o.ptr]? = some (.live b)
  size : st.heap.length = n
  freed : st.heap.countP Cell.isFreed = f
  own : ∀ p ∈ O, st.views[p.1]? = some p.2
  only : ∀ p ∈ O, ∀ (k : Nat) (o o' : Obj), k ≠ p.1 → st.objs[k]? = some o → st.objs[p.1]? = some o' → o.ptr ≠ o'.ptr
  env : ∀ p ∈ E, st.views[p.1]? = some p.2
  apart : ∀ p ∈ O, ∀ q ∈ E, p.1 ≠ q.1
  nodup : (O.map Prod.fst).Nodup

variable {st : St α} {n f : Nat} {O E : List (Nat × Mat α)}

theorem view_some {i : Nat} {m : Mat α} (h : st.views[i]? = some m) : st.view i = .ok m := by
  rw [view_eq, h]

theorem view_lt {i : Nat} {m : Mat α} (h : st.views[i]? = some m) : i < st.objs.length := by
  have := (List.getElem?_eq_some_iff.1 h).1
  simpa [St.views] using this

theorem Good.release {p : Nat × Mat α} (g : Good st n f (p :: O) E) : Good st n f O (p :: E) := by
  refine ⟨g.alive, g.size, g.freed, fun q hq => g.own q (by simp [hq]), fun q hq => g.only q (by simp [hq]), ?_, ?_, ?_⟩
  · intro q hq
    rcases List.mem_cons.1 hq with rfl | hq
    · exact g.own _ (by simp)
    · exact g.env q hq
  · intro a ha q hq
    have hn := g.nodup
    rw [List.map_cons, List.nodup_cons] at hn
    rcases List.mem_cons.1 hq with rfl | hq
    · intro e
      exact hn.1 (e ▸ List.mem_map_of_mem ha)
    · exact g.apart a (by simp [ha]) q hq
  · have hn := g.nodup
    rw [List.map_cons, List.nodup_cons] at hn
    exact hn.2

theorem Good.swap {p q : Nat × Mat α} (g : Good st n f (p :: q :: O) E) : Good st n f (q :: p :: O) E := by
  have hm : ∀ r, r ∈ q :: p :: O → r ∈ p :: q :: O := by
    intro r hr
    simp only [List.mem_cons] at hr ⊢
    rcases hr with h | h | h
    · exact .inr (.inl h)
    · exact .inl h
    · exact .inr (.inr h)
  refine ⟨g.alive, g.size, g.freed, fun r hr => g.own r (hm r hr), fun r hr => g.only r (hm r hr), g.env, fun r hr => g.apart r (hm r hr), ?_⟩
  have hn := g.nodup
  simp only [List.map_cons, List.nodup_cons, List.mem_cons, not_or] at hn ⊢
  exact ⟨⟨fun h => hn.1.1 h.symm, hn.2.1⟩, hn.1.2, hn.2.2⟩

theorem Good.narrow {E' : List (Nat × Mat α)} (g : Good st n f O E) (h : ∀ p ∈ E', p ∈ E) : Good st n f O E' :=
  ⟨g.alive, g.size, g.freed, g.own, g.only, fun p hp => g.env p (h p hp), fun p hp q hq => g.apart p hp q (h q hq), g.nodup⟩

theorem Good.lt (g : Good st n f O E) {o : Obj} (ho : o ∈ st.objs) : o.ptr < st.heap.length := by
  obtain ⟨b, hb⟩ := g.alive o ho
  exact (List.getElem?_eq_some_iff.1 hb).1

theorem Good.fresh (g : Good st n f O E) (m : Mat α) :
    Good (st.fresh m false) (n + 1) f ((st.objs.length, m) :: O) E := by
  have hv : (st.fresh m false).views = st.views ++ [m] := by
    unfold St.views St.fresh
    simp only [List.map_append, List.map_cons, List.map_nil]
    congr 1
    · apply List.map_congr_left
      intro o ho
      unfold denote
      rw [List.getElem?_append_left (g.lt ho)]
    · simp [denote, Cell.buf]
  have hl : st.views.length = st.objs.length := by simp [St.views]
  have old : ∀ p : Nat × Mat α, st.views[p.1]? = some p.2 → (st.fresh m false).views[p.1]? = some p.2 := by
    intro p hp
    rw [hv, List.getElem?_append_left (by rw [hl]; exact view_lt hp)]
    exact hp
  refine ⟨?_, ?_, ?_, ?_, ?_, ?_, ?_, ?_⟩
  · intro o ho
    rcases List.mem_append.1 ho with ho | ho
    · obtain ⟨b, hb⟩ := g.alive o ho
      exact ⟨b, by
        show (st.heap ++ _)[o.ptr]? = _
        rw [List.getElem?_append_left (g.lt ho)]; exact hb⟩
    · simp only [List.mem_singleton] at ho
      subst ho
      exact ⟨m.elem, by simp [St.fresh]⟩
  · simp [St.fresh, g.size]
  · simp [St.fresh, List.countP_append, g.freed, Cell.isFreed]
  · intro p hp
    rcases List.mem_cons.1 hp with rfl | hp
    · show (st.fresh m false).views[st.objs.length]? = some m
      rw [hv, List.getElem?_append_right (by omega), hl]
      simp
    · exact old p (g.own p hp)
  · intro p hp k o o' hk ho ho'
    have key : ∀ (k : Nat) (o : Obj), (st.fresh m false).objs[k]? = some o → k ≠ st.objs.length → st.objs[k]? = some o := by
      intro k o ho hk
      have : k < st.objs.length := by
        have := (List.getElem?_eq_some_iff.1 ho).1
        simp [St.fresh] at this
        omega
      rw [show (st.fresh m false).objs = st.objs ++ [⟨m.rows, m.cols, m.shel, st.heap.length⟩] from rfl,
        List.getElem?_append_left this] at ho
      exact ho
    have last : ∀ o : Obj, (st.fresh m false).objs[st.objs.length]? = some o → o.ptr = st.heap.length := by
      intro o ho
      rw [show (st.fresh m false).objs = st.objs ++ [⟨m.rows, m.cols, m.shel, st.heap.length⟩] from rfl,
        List.getElem?_append_right (by omega)] at ho
      simp at ho
      rw [← ho]
    rcases List.mem_cons.1 hp with rfl | hp
    · have := g.lt (List.mem_of_getElem? (key k o ho hk))
      rw [last o' ho']
      omega
    · have hpl := view_lt (g.own p hp)
      have ho' := key _ _ ho' (by omega)
      by_cases hkl : k = st.objs.length
      · subst hkl
        have := g.lt (List.mem_of_getElem? ho')
        rw [last o ho]
        omega
      · exact g.only p hp k o o' hk (key k o ho hkl) ho'
  · intro p hp
    exact old p (g.env p hp)
  · intro p hp q hq
    have hql := view_lt (g.env q hq)
    rcases List.mem_cons.1 hp with rfl | hp
    · simp only; omega
    · exact g.apart p hp q hq
  · rw [List.map_cons, List.nodup_cons]
    refine ⟨fun h => ?_, g.nodup⟩
    obtain ⟨q, hq, e⟩ := List.mem_map.1 h
    have hql := view_lt (g.own q hq)
    omega

theorem Good.copy (g : Good st n f O E) {i : Nat} {m : Mat α} (h : (i, m) ∈ E) :
    ∃ st', st.copyCtor i = .ok st' ∧ Good st' n f O ((st.objs.length, m) :: E) := by
  have hi := g.env _ h
  have hlt := view_lt hi
  have ho : st.objs[i]? = some st.objs[i] := List.getElem?_eq_getElem hlt
  refine ⟨{ st with objs := st.objs ++ [st.objs[i]] }, ?_, ?_⟩
  · unfold St.copyCtor
    rw [ho]
  have hl : st.views.length = st.objs.length := by simp [St.views]
  have hm : denote st.heap st.objs[i] = m := by
    have := hi
    simp only [St.views, List.getElem?_map, ho, Option.map_some, Option.some.injEq] at this
    exact this
  have hv : ({ st with objs := st.objs ++ [st.objs[i]] } : St α).views = st.views ++ [m] := by
    simp [St.views, hm]
  have old : ∀ p : Nat × Mat α, st.views[p.1]? = some p.2 →
      ({ st with objs := st.objs ++ [st.objs[i]] } : St α).views[p.1]? = some p.2 := by
    intro p hp
    rw [hv, List.getElem?_append_left (by rw [hl]; exact view_lt hp)]
    exact hp
  refine ⟨?_, g.size, g.freed, fun p hp => old p (g.own p hp), ?_, ?_, ?_, g.nodup⟩
  · intro o ho
    rcases List.mem_append.1 ho with ho | ho
    · exact g.alive o ho
    · simp only [List.mem_singleton] at ho
      subst ho
      exact g.alive _ (List.getElem_mem hlt)
  · intro p hp k o o' hk hko hpo
    have hpl := view_lt (g.own p hp)
    simp only at hko hpo
    rw [List.getElem?_append_left hpl] at hpo
    by_cases hkl : k < st.objs.length
    · rw [List.getElem?_append_left hkl] at hko
      exact g.only p hp k o o' hk hko hpo
    · have : k = st.objs.length := by
        have := (List.getElem?_eq_some_iff.1 hko).1
        simp at this
        omega
      subst this
      rw [List.getElem?_append_right (by omega)] at hko
      simp at hko
      subst hko
      exact g.only p hp i _ o' (fun e => g.apart p hp _ h e.symm) ho hpo
  · intro p hp
    rcases List.mem_cons.1 hp with rfl | hp
    · simp only
      rw [hv, List.getElem?_append_right (by omega), hl]
      simp
    · exact old p (g.env p hp)
  · intro p hp q hq
    have hpl := view_lt (g.own p hp)
    rcases List.mem_cons.1 hq with rfl | hq
    · simp only; omega
    · exact g.apart p hp q hq

/-- A change of the object `i` and of buffers that belong to it alone. -/
theorem Good.change {i : Nat} {m0 m : Mat α} (g : Good st n f ((i, m0) :: O) E) {o o1 : Obj} {heap' : List (Cell α)} {n' f' : Nat}
    (hi : st.objs[i]? = some o) (hp : o1.ptr = o.ptr ∨ o1.ptr = st.heap.length)
    (hlen : st.heap.length ≤ heap'.length) (hkeep : ∀ p, p ≠ o.ptr → p < st.heap.length → heap'[p]? = st.heap[p]?)
    (hm : ∃ b, heap'[o1.ptr]? = some (.live b)) (hd : denote heap' o1 = m) (hn : heap'.length = n')
    (hf : heap'.countP Cell.isFreed = f') : Good ⟨st.objs.set i o1, heap'⟩ n' f' ((i, m) :: O) E := by
  have hil := (List.getElem?_eq_some_iff.1 hi).1
  have diff : ∀ (k : Nat) (o' : Obj), k ≠ i → st.objs[k]? = some o' → o'.ptr ≠ o.ptr := fun k o' hk hk' =>
    g.only (i, m0) (by simp) k o' o hk hk' hi
  have getk : ∀ (k : Nat), k ≠ i → (st.objs.set i o1)[k]? = st.objs[k]? := fun k hk => List.getElem?_set_ne (fun e => hk e.symm)
  have geti : (st.objs.set i o1)[i]? = some o1 := List.getElem?_set_self hil
  have old : ∀ p : Nat × Mat α, p.1 ≠ i → st.views[p.1]? = some p.2 → (⟨st.objs.set i o1, heap'⟩ : St α).views[p.1]? = some p.2 := by
    intro p hp hv
    have hlt := view_lt hv
    have ho : st.objs[p.1]? = some st.objs[p.1] := List.getElem?_eq_getElem hlt
    simp only [St.views, List.getElem?_map, ho, Option.map_some, getk _ hp] at hv ⊢
    rw [← hv]
    unfold denote
    rw [hkeep _ (diff _ _ hp ho) (g.lt (List.getElem_mem hlt))]
  have hnd := g.nodup
  rw [List.map_cons, List.nodup_cons] at hnd
  have hne : ∀ p ∈ O, p.1 ≠ i := fun p hp e => hnd.1 (List.mem_map.2 ⟨p, hp, e⟩)
  have heq : ∀ p ∈ E, p.1 ≠ i := fun p hp e => g.apart (i, m0) (by simp) p hp e.symm
  have otherPtr : ∀ (k : Nat) (o' : Obj), k ≠ i → st.objs[k]? = some o' → o'.ptr ≠ o1.ptr := by
    intro k o' hk hk'
    rcases hp with hp | hp
    · rw [hp]; exact diff k o' hk hk'
    · have := g.lt (List.mem_of_getElem? hk')
      omega
  refine ⟨?_, hn, hf, ?_, ?_, fun p hp => old p (heq p hp) (g.env p hp), ?_, ?_⟩
  · intro o' ho'
    obtain ⟨k, hk, e⟩ := List.mem_iff_getElem.1 ho'
    have hk' : (st.objs.set i o1)[k]? = some o' := by rw [List.getElem?_eq_getElem hk, e]
    by_cases hki : k = i
    · subst hki
      rw [geti] at hk'
      cases hk'
      exact hm
    · rw [getk k hki] at hk'
      obtain ⟨b, hb⟩ := g.alive o' (List.mem_of_getElem? hk')
      exact ⟨b, by
        show heap'[o'.ptr]? = _
        rw [hkeep _ (diff k o' hki hk') (g.lt (List.mem_of_getElem? hk'))]; exact hb⟩
  · intro p hp'
    rcases List.mem_cons.1 hp' with rfl | hp'
    · simp only [St.views, List.getElem?_map, geti, Option.map_some, hd]
    · exact old p (hne p hp') (g.own p (by simp [hp']))
  · intro p hp' k a b hk ha hb
    simp only at ha hb
    rcases List.mem_cons.1 hp' with rfl | hp'
    · simp only at hk hb
      rw [geti] at hb
      cases hb
      rw [getk k hk] at ha
      exact otherPtr k a hk ha
    · have hpi := hne p hp'
      rw [getk _ hpi] at hb
      by_cases hki : k = i
      · rw [hki, geti] at ha
        cases ha
        exact (otherPtr _ b hpi hb).symm
      · rw [getk k hki] at ha
        exact g.only p (by simp [hp']) k a b hk ha hb
  · intro p hp' q hq
    rcases List.mem_cons.1 hp' with rfl | hp'
    · exact (heq q hq).symm
    · exact g.apart p (by simp [hp']) q hq
  · rw [List.map_cons, List.nodup_cons]
    exact hnd

theorem countP_set {p : Cell α → Bool} : ∀ (l : List (Cell α)) (k : Nat) (a b : Cell α), l[k]? = some a →
    (l.set k b).countP p + (if p a then 1 else 0) = l.countP p + (if p b then 1 else 0)
  | [], k, a, b, h => by simp at h
  | c :: l, 0, a, b, h => by
    simp at h
    subst h
    simp only [List.set_cons_zero, List.countP_cons]
    omega
  | c :: l, k + 1, a, b, h => by
    simp only [List.getElem?_cons_succ] at h
    have := countP_set (p := p) l k a b h
    simp only [List.set_cons_succ, List.countP_cons]
    omega

theorem Good.store {i : Nat} {m0 m : Mat α} (g : Good st n f ((i, m0) :: O) E) :
    ∃ st', st.store i m = .ok st' ∧ Good st' n f ((i, m) :: O) E := by
  have hv := g.own (i, m0) (by simp)
  have hlt := view_lt hv
  have ho : st.objs[i]? = some st.objs[i] := List.getElem?_eq_getElem hlt
  obtain ⟨b, hb⟩ := g.alive _ (List.getElem_mem hlt)
  have hpl := (List.getElem?_eq_some_iff.1 hb).1
  refine ⟨⟨st.objs.set i ⟨m.rows, m.cols, m.shel, st.objs[i].ptr⟩, st.heap.set st.objs[i].ptr (.live m.elem)⟩, ?_, ?_⟩
  · unfold St.store
    rw [ho]
    simp only [hb]
  · refine g.change ho (.inl rfl) (by simp) (fun p hp _ => List.getElem?_set_ne (fun e => hp e.symm)) ⟨m.elem, ?_⟩ ?_ ?_ ?_
    · exact List.getElem?_set_self hpl
    · unfold denote
      simp only
      rw [List.getElem?_set_self hpl]
      rfl
    · simpa using g.size
    · have := countP_set (p := Cell.isFreed) st.heap _ _ (.live m.elem) hb
      simp only [Cell.isFreed] at this
      simpa [g.freed] using this

theorem Good.realloc {i : Nat} {m0 m : Mat α} (g : Good st n f ((i, m0) :: O) E) :
    ∃ st', st.realloc i m = .ok st' ∧ Good st' (n + 1) (f + 1) ((i, m) :: O) E := by
  have hv := g.own (i, m0) (by simp)
  have hlt := view_lt hv
  have ho : st.objs[i]? = some st.objs[i] := List.getElem?_eq_getElem hlt
  obtain ⟨b, hb⟩ := g.alive _ (List.getElem_mem hlt)
  have hpl := (List.getElem?_eq_some_iff.1 hb).1
  refine ⟨⟨st.objs.set i ⟨m.rows, m.cols, m.shel, st.heap.length⟩, st.heap.set st.objs[i].ptr .freed ++ [.live m.elem]⟩, ?_, ?_⟩
  · unfold St.realloc
    rw [ho]
    simp only [hb]
  · refine g.change ho (.inr rfl) (by simp) (fun p hp hpl' => ?_) ⟨m.elem, ?_⟩ ?_ ?_ ?_
    · rw [List.getElem?_append_left (by simpa using hpl')]
      exact List.getElem?_set_ne (fun e => hp e.symm)
    · rw [List.getElem?_append_right (by simp)]
      simp
    · unfold denote
      simp only
      rw [List.getElem?_append_right (by simp)]
      simp [Cell.buf]
    · simp [g.size]
    · have := countP_set (p := Cell.isFreed) st.heap _ _ .freed hb
      simp only [Cell.isFreed] at this
      rw [List.countP_append]
      simp [Cell.isFreed]
      rw [← g.freed]
      simpa using this

/-! ### statements -/

section
variable {β γ β' γ' : Type}

theorem Like.hbind {x : HM α β} {y : Res γ} {k : β → HM α β'} {l : γ → Res γ'} {R : β × St α → γ → Prop} {R' : β' × St α → γ' → Prop}
    (h : Res.Like R (x st) y) (hf : ∀ b st' c, R (b, st') c → Res.Like R' (k b st') (l c)) :
    Res.Like R' ((x >>= k) st) (y >>= l) :=
  Res.Like.bind h fun p c hr => hf p.1 p.2 c hr

theorem Like.refl_bind {x : Res β} {k : β → Res β'} {l : β → Res γ'} {R' : β' → γ' → Prop}
    (hf : ∀ b, x = .ok b → Res.Like R' (k b) (l b)) : Res.Like R' (x >>= k) (x >>= l) := by
  cases x with
  | ok b => exact hf b rfl
  | throw e => exact rfl
  | exit n => exact rfl
  | ub => exact trivial
  | diverge => exact trivial

theorem Like.lift {x : Res β} {k : β → HM α β'} {l : β → Res γ'} {R' : β' × St α → γ' → Prop}
    (hf : ∀ b, Res.Like R' (k b st) (l b)) : Res.Like R' ((Heap.lift x >>= k) st) (x >>= l) := by
  show Res.Like R' ((x >>= fun b => Res.ok (b, st)) >>= fun p => k p.1 p.2) _
  rw [bind_assoc]
  exact Like.refl_bind fun b _ => hf b

theorem Like.fail {R : β × St α → γ → Prop} {y : Res γ} (x : Res β) (hx : ∀ b, x ≠ .ok b) (hy : Res.Like (fun _ _ => False) x y) :
    Res.Like R (Heap.lift x st) y := by
  cases x <;> cases y <;> first | exact (hx _ rfl).elim | exact absurd hy id | exact hy

theorem look_eq {i : Nat} {m : Mat α} (h : st.views[i]? = some m) (k : Mat α → HM α β) : (look i >>= k) st = k m st := by
  show ((st.view i >>= fun m => Res.ok (m, st)) >>= fun p => k p.1 p.2) = _
  rw [view_some h]
  rfl

theorem Like.look {i : Nat} {m : Mat α} (h : st.views[i]? = some m) {k : Mat α → HM α β} {y : Res γ} {R : β × St α → γ → Prop}
    (hk : Res.Like R (k m st) y) : Res.Like R ((Heap.look i >>= k) st) y := by
  rw [look_eq h]
  exact hk

/-- A loop on objects against the loop on values. -/
theorem Like.loop {σ τ : Type} {lo hi : Int} {s : σ} {t : τ} {body : σ → Int → HM α σ} {body' : τ → Int → Res τ}
    {R : σ × St α → τ → Prop} (h0 : R (s, st) t)
    (hb : ∀ s st t i, R (s, st) t → Res.Like R (body s i st) (body' t i)) :
    Res.Like R (Heap.loop lo hi s body st) (forRange lo hi t body') := by
  unfold Heap.loop forRange
  generalize irange lo hi = l
  revert s st t
  induction l with
  | nil => intro st s t h0; exact h0
  | cons i l ih =>
    intro st s t h0
    simp only [List.foldlM_cons]
    exact Res.Like.bind (hb s st t i h0) fun p c hp => ih (s := p.1) (st := p.2) hp

theorem Like.foldlM {σ τ κ κ' : Type} {body : σ → κ → HM α σ} {body' : τ → κ' → Res τ} (Q : κ → κ' → Prop)
    {R : Nat → σ × St α → τ → Prop} {L : List κ} {L' : List κ'} (hl : List.Forall₂ Q L L') {s : σ} {t : τ} {k : Nat} (h0 : R k (s, st) t)
    (hb : ∀ k s st t i i', Q i i' → R k (s, st) t → Res.Like (R (k + 1)) (body s i st) (body' t i')) :
    Res.Like (R (k + L.length)) (L.foldlM body s st) (L'.foldlM body' t) := by
  induction hl generalizing st s t k with
  | nil => exact h0
  | cons hq _ ih =>
    simp only [List.foldlM_cons, List.length_cons]
    refine Like.hbind (hb k s st t _ _ hq h0) fun b st' c hr => ?_
    have := ih hr
    rwa [Nat.add_assoc, Nat.add_comm 1] at this

variable [Zero α] [Add α] [Mul α]

/-- A constructor (not `Matrix(0)`). -/
theorem Like.construct (g : Good st n f O E) (b : Build α) (hb : b.null = false) :
    Res.Like (fun p m => Good p.2 (n + 1) f ((p.1, m) :: O) E) (make (.construct b) st) b.run := by
  have : make (.construct b) st = (b.run >>= fun m => Res.ok (st.objs.length, st.fresh m b.null)) := by
    show ((b.run >>= fun m => Res.ok (st.fresh m b.null)) >>= fun st' => Res.ok (st.objs.length, st')) = _
    rw [bind_assoc]
    rfl
  rw [this, hb]
  cases h : b.run <;> first | exact g.fresh _ | rfl | trivial

theorem Like.derive (g : Good st n f O E) {i : Nat} {m : Mat α} (h : st.views[i]? = some m) (d : Derive) :
    Res.Like (fun p m' => Good p.2 (n + 1) f O ((p.1, m') :: E)) (make (.derive i d) st) (d.run m) := by
  have : make (.derive i d) st = (d.run m >>= fun m' => Res.ok (st.objs.length, st.fresh m' false)) := by
    show ((st.view i >>= fun m => d.run m >>= fun m' => Res.ok (st.fresh m' false)) >>= fun st' => Res.ok (st.objs.length, st')) = _
    rw [view_some h]
    simp only [Res.ok_bind, bind_assoc]
  rw [this]
  cases h : d.run m <;> first | exact (g.fresh _).release | rfl | trivial

theorem Like.combine (g : Good st n f O E) {i j : Nat} {a b : Mat α} (hi : (i, a) ∈ E) (hj : (j, b) ∈ E) (d : Combine) :
    Res.Like (fun p m' => Good p.2 (n + 1) f O ((p.1, m') :: E)) (make (.combine i j d) st) (d.run a b) := by
  have : make (.combine i j d) st = (d.run a b >>= fun m' => Res.ok (st.objs.length, st.fresh m' false)) := by
    show ((st.view i >>= fun a => st.view j >>= fun b => d.run a b >>= fun m' => Res.ok (st.fresh m' false)) >>=
      fun st' => Res.ok (st.objs.length, st')) = _
    rw [view_some (g.env _ hi), view_some (g.env _ hj)]
    simp only [Res.ok_bind, bind_assoc]
  rw [this]
  cases h : d.run a b <;> first | exact (g.fresh _).release | rfl | trivial

/-- A copy construction goes on with another name of the same matrix. -/
theorem Like.copy (g : Good st n f O E) {i : Nat} {m : Mat α} (h : (i, m) ∈ E) {k : Nat → HM α β} {y : Res γ} {R : β × St α → γ → Prop}
    (hk : ∀ j st', Good st' n f O ((j, m) :: E) → Res.Like R (k j st') y) : Res.Like R ((make (.copyCtor i) >>= k) st) y := by
  obtain ⟨st', e, g'⟩ := g.copy h
  show Res.Like R ((st.copyCtor i >>= fun st' => Res.ok (st.objs.length, st')) >>= fun p => k p.1 p.2) y
  rw [e]
  exact hk _ _ g'

theorem Like.copied (g : Good st n f O E) {i : Nat} {m : Mat α} (h : (i, m) ∈ E) :
    Res.Like (fun p m' => Good p.2 n f O ((p.1, m') :: E)) (make (.copyCtor i) st) (.ok m) := by
  obtain ⟨st', e, g'⟩ := g.copy h
  show Res.Like _ (st.copyCtor i >>= fun st' => Res.ok (st.objs.length, st')) _
  rw [e]
  exact g'

theorem bind_ok' (x : Res β) : (x >>= fun b => Res.ok b) = x := by cases x <;> rfl

theorem Like.invert (g : Good st n f O E) {i : Nat} {m : Mat α} (h : (i, m) ∈ E) :
    Res.Like (fun p m' => Good p.2 (n + 1) f O ((p.1, m') :: E)) (Heap.invert i st) m.invert := by
  rw [← bind_ok' m.invert]
  refine Like.hbind (Like.derive g (g.env _ h) .invert) fun t st' m' g' => ?_
  have := Like.copied g' (i := t) (m := m') (by simp)
  cases hx : make (.copyCtor t) st' with
  | ok p => rw [hx] at this; exact this.narrow (by intro p hp; simp only [List.mem_cons] at hp ⊢; tauto)
  | _ => rw [hx] at this; exact this

theorem Like.product (g : Good st n f O E) {i j : Nat} {a b : Mat α} (hi : (i, a) ∈ E) (hj : (j, b) ∈ E) :
    Res.Like (fun p m' => Good p.2 (n + 1) f O ((p.1, m') :: E)) (Heap.product i j st) (a.mul b) := by
  rw [← bind_ok' (a.mul b)]
  refine Like.hbind (Like.combine g hi hj .mul) fun t st' m' g' => ?_
  have := Like.copied g' (i := t) (m := m') (by simp)
  cases hx : make (.copyCtor t) st' with
  | ok p => rw [hx] at this; exact this.narrow (by intro p hp; simp only [List.mem_cons] at hp ⊢; tauto)
  | _ => rw [hx] at this; exact this

/-- `set_elem` on an object that shares its buffer with none. -/
theorem Like.setElem {i : Nat} {m : Mat α} (g : Good st n f ((i, m) :: O) E) (v : α) (r c : Int) :
    Res.Like (fun (p : Unit × St α) m' => Good p.2 n f ((i, m') :: O) E) (act (.inPlace i (.setElem2 v r c)) st) (m.setElem2 v r c) := by
  have : act (.inPlace i (.setElem2 v r c)) st = (m.setElem2 v r c >>= fun m' => st.store i m' >>= fun st' => Res.ok ((), st')) := by
    show ((st.view i >>= fun m => m.setElem2 v r c >>= fun m' => st.store i m') >>= fun st' => Res.ok ((), st')) = _
    rw [view_some (g.own (i, m) (by simp))]
    simp only [Res.ok_bind, bind_assoc]
  rw [this]
  cases h : m.setElem2 v r c with
  | ok m' =>
    obtain ⟨st', e, g'⟩ := g.store (m := m')
    simp only [Res.ok_bind, e]
    exact g'
  | _ => first | rfl | trivial

/-- `operator=` to an object that shares its buffer with none. -/
theorem Like.assign {i j : Nat} {mi mj : Mat α} (g : Good st n f ((i, mi) :: O) E) (hj : (j, mj) ∈ E) :
    Res.Like (fun (p : Unit × St α) m' => Good p.2 (n + 1) (f + 1) O ((i, m') :: E)) (act (.assign i j) st) (mi.assign mj) := by
  have : act (.assign i j) st = (mi.resize mj.rows mj.cols >>= fun mi' => st.realloc i mi' >>= fun st =>
      assignLoop st i j mj.rows mj.cols >>= fun st' => Res.ok ((), st')) := by
    show ((st.view j >>= fun mj => st.view i >>= fun mi => mi.resize mj.rows mj.cols >>= fun mi' => st.realloc i mi' >>= fun st =>
      assignLoop st i j mj.rows mj.cols) >>= fun st' => Res.ok ((), st')) = _
    rw [view_some (g.own (i, mi) (by simp)), view_some (g.env _ hj)]
    simp only [Res.ok_bind, bind_assoc]
  rw [this]
  unfold Mat.assign
  refine Like.refl_bind fun mi' hr => ?_
  clear hr
  obtain ⟨st1, e, g1⟩ := g.realloc (m := mi')
  rw [e, Res.ok_bind]
  rw [← bind_ok' (forRange 1 mj.rows mi' _)]
  refine Res.Like.bind (R := fun st' m' => Good st' (n + 1) (f + 1) ((i, m') :: O) E) ?_ fun st' m' g' => g'.release
  unfold assignLoop
  rw [forRange_nest, forRange_nest]
  generalize (irange 1 mj.rows).flatMap (fun i => (irange 1 mj.cols).map (fun j => (i, j))) = L
  clear this e
  revert st1 mi'
  induction L with
  | nil => intro mi' st1 g1; exact g1
  | cons p L ih =>
    intro mi' st1 g1
    simp only [List.foldlM_cons, bind_assoc]
    rw [view_some (g1.env _ hj), view_some (g1.own (i, mi') (by simp))]
    simp only [Res.ok_bind]
    refine Like.refl_bind fun v _ => ?_
    refine Like.refl_bind fun m' _ => ?_
    obtain ⟨st2, e, g2⟩ := g1.store (m := m')
    rw [e, Res.ok_bind]
    exact ih m' st2 g2

end
end Verif.Heap
