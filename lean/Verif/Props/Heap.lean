import Verif.Spec.Heap
import Verif.HeapLemmas
import Verif.Props.MatrixA
/-
Property C07: independence of copies.
-/
namespace Verif.Heap
variable {α : Type}

/-- No object points to a deleted buffer, no two objects to the same buffer. -/
structure Inv (st : St α) : Prop where
  live : ∀ o ∈ st.objs, ∃ c, st.heap[o.ptr]? = some c ∧ c ≠ .freed
  nodup : (st.objs.map Obj.ptr).Nodup

theorem view_eq (st : St α) (i : Nat) : st.view i = match st.views[i]? with | none => .ub | some m => .ok m := by
  unfold St.view St.views
  rw [List.getElem?_map]
  cases st.objs[i]? <;> rfl

theorem ptr_ne {st : St α} (h : Inv st) {i j : Nat} {o o' : Obj} (hi : st.objs[i]? = some o) (hj : st.objs[j]? = some o')
    (hne : i ≠ j) : o.ptr ≠ o'.ptr := by
  intro he
  obtain ⟨a1, a2⟩ := List.getElem?_eq_some_iff.1 hi
  obtain ⟨b1, b2⟩ := List.getElem?_eq_some_iff.1 hj
  have hp := List.pairwise_iff_getElem.1 (List.nodup_iff_pairwise_ne.1 h.nodup)
  rcases Nat.lt_or_gt_of_ne hne with hlt | hlt
  · exact hp i j (by simpa using a1) (by simpa using b1) hlt (by simp [a2, b2, he])
  · exact hp j i (by simpa using b1) (by simpa using a1) hlt (by simp [a2, b2, he])

theorem store_spec {st : St α} (h : Inv st) {i : Nat} {m0 : Mat α} (hi : st.views[i]? = some m0) {m : Mat α} (hm : Same m0 m) :
    ∃ st', st.store i m = .ok st' ∧ Inv st' ∧ st'.views = st.views.set i m := by
  unfold St.views at hi
  rw [List.getElem?_map] at hi
  cases ho : st.objs[i]? with
  | none => rw [ho] at hi; simp at hi
  | some o =>
    rw [ho] at hi
    have hlt := (List.getElem?_eq_some_iff.1 ho).1
    have hmem := List.mem_of_getElem? ho
    obtain ⟨c, hb, hc⟩ := h.live o hmem
    have hpl := (List.getElem?_eq_some_iff.1 hb).1
    -- the new heap: every other object's cell is as before, this one's buffer is the new one
    have heap' : ∃ heap', st.store i m = .ok ⟨st.objs.set i ⟨m.rows, m.cols, m.shel, o.ptr⟩, heap'⟩ ∧ (∀ p, o.ptr ≠ p → heap'[p]? = st.heap[p]?) ∧
          ∃ c', heap'[o.ptr]? = some c' ∧ c' ≠ .freed ∧ c'.buf = m.elem := by
      unfold St.store
      rw [ho]
      simp only [hb]
      cases c with
      | live b =>
        exact ⟨_, rfl, fun p hp => List.getElem?_set_ne hp, _, List.getElem?_set_self (by simpa using hpl), by simp, rfl⟩
      | freed => exact (hc rfl).elim
      | null =>
        refine ⟨_, rfl, fun _ _ => rfl, .null, hb, by simp, ?_⟩
        simp only [Option.map_some, Option.some.injEq] at hi
        have : m0.elem = [] := by rw [← hi]; unfold denote; rw [hb]; rfl
        have h4 := hm.2.2.2
        rw [this] at h4
        exact (List.length_eq_zero_iff.1 h4).symm
    obtain ⟨heap', e', he, c', hc', hnf, hbuf⟩ := heap'
    refine ⟨_, e', ⟨?_, ?_⟩, ?_⟩
    · intro o' ho'
      simp only at ho' ⊢
      obtain ⟨n, hn, rfl⟩ := List.mem_iff_getElem.1 ho'
      rw [List.getElem_set]
      by_cases hin : i = n
      · rw [if_pos hin]
        exact ⟨c', hc', hnf⟩
      · rw [if_neg hin]
        have hn' : n < st.objs.length := by simpa using hn
        rw [he _ (ptr_ne h ho (List.getElem?_eq_getElem hn') hin)]
        exact h.live _ (List.getElem_mem hn')
    · simp only [List.map_set]
      have : (st.objs.map Obj.ptr).set i o.ptr = st.objs.map Obj.ptr := by
        apply List.ext_getElem?
        intro n
        rw [List.getElem?_set]
        split
        · subst_vars
          rw [List.getElem?_map, ho, if_pos (by simpa using hlt)]; rfl
        · rfl
      rw [this]; exact h.nodup
    · unfold St.views
      apply List.ext_getElem?
      intro n
      simp only [List.getElem?_map, List.getElem?_set, List.length_map]
      by_cases hin : i = n
      · subst hin
        simp only [if_true, hlt, Option.map_some]
        simp [denote, hc', hbuf]
      · simp only [if_neg hin]
        cases hon : st.objs[n]? with
        | none => simp
        | some o' =>
          simp only [Option.map_some, denote]
          rw [he _ (ptr_ne h ho hon hin)]

theorem realloc_spec {st : St α} (h : Inv st) {i : Nat} {m0 : Mat α} (hi : st.views[i]? = some m0) (m : Mat α) :
    ∃ st', st.realloc i m = .ok st' ∧ Inv st' ∧ st'.views = st.views.set i m := by
  unfold St.views at hi
  rw [List.getElem?_map] at hi
  cases ho : st.objs[i]? with
  | none => rw [ho] at hi; simp at hi
  | some o =>
    have hlt := (List.getElem?_eq_some_iff.1 ho).1
    have hmem := List.mem_of_getElem? ho
    obtain ⟨c, hb, hc⟩ := h.live o hmem
    have hpl := (List.getElem?_eq_some_iff.1 hb).1
    have heap' : ∃ heap', st.realloc i m = .ok ⟨st.objs.set i ⟨m.rows, m.cols, m.shel, st.heap.length⟩, heap' ++ [.live m.elem]⟩ ∧
        heap'.length = st.heap.length ∧ ∀ p, o.ptr ≠ p → heap'[p]? = st.heap[p]? := by
      unfold St.realloc
      rw [ho]
      simp only [hb]
      cases c with
      | live b => exact ⟨_, rfl, by simp, fun p hp => List.getElem?_set_ne hp⟩
      | freed => exact (hc rfl).elim
      | null => exact ⟨_, rfl, rfl, fun _ _ => rfl⟩
    obtain ⟨heap', e', hlen, he⟩ := heap'
    have hget : ∀ (n : Nat) (o' : Obj), i ≠ n → st.objs[n]? = some o' →
        (heap' ++ [Cell.live m.elem])[o'.ptr]? = st.heap[o'.ptr]? := by
      intro n o' hin hon
      obtain ⟨b', hb', -⟩ := h.live o' (List.mem_of_getElem? hon)
      have hpl' := (List.getElem?_eq_some_iff.1 hb').1
      rw [List.getElem?_append_left (by omega), he _ (ptr_ne h ho hon hin)]
    refine ⟨_, e', ⟨?_, ?_⟩, ?_⟩
    · intro o' ho'
      simp only at ho' ⊢
      obtain ⟨n, hn, rfl⟩ := List.mem_iff_getElem.1 ho'
      rw [List.getElem_set]
      by_cases hin : i = n
      · rw [if_pos hin]
        exact ⟨.live m.elem, by simp [← hlen], by simp⟩
      · rw [if_neg hin]
        have hn' : n < st.objs.length := by simpa using hn
        rw [hget n _ hin (List.getElem?_eq_getElem hn')]
        exact h.live _ (List.getElem_mem hn')
    · simp only [List.map_set]
      rw [List.nodup_iff_pairwise_ne, List.pairwise_iff_getElem]
      intro a c ha hc hac
      have ha' : a < st.objs.length := by simpa using ha
      have hc' : c < st.objs.length := by simpa using hc
      rw [List.getElem_set, List.getElem_set]
      have old : ∀ n (hn : n < st.objs.length), st.objs[n].ptr < st.heap.length := fun n hn => by
        obtain ⟨b', hb', -⟩ := h.live _ (List.getElem_mem hn)
        exact (List.getElem?_eq_some_iff.1 hb').1
      have oa := old a ha'
      have oc := old c hc'
      split <;> split
      · omega
      · simp only [List.getElem_map]; omega
      · simp only [List.getElem_map]; omega
      · have := ptr_ne h (List.getElem?_eq_getElem ha') (List.getElem?_eq_getElem hc') (by omega)
        simpa using this
    · unfold St.views
      apply List.ext_getElem?
      intro n
      simp only [List.getElem?_map, List.getElem?_set, List.length_map]
      by_cases hin : i = n
      · subst hin
        simp only [if_true, hlt, Option.map_some]
        simp [denote, ← hlen, Cell.buf]
      · simp only [if_neg hin]
        cases hon : st.objs[n]? with
        | none => simp
        | some o' =>
          simp only [Option.map_some, denote]
          rw [hget n o' hin hon]

theorem fresh_spec {st : St α} (h : Inv st) {m : Mat α} {null : Bool} (hn : null = true → m.elem = []) :
    Inv (st.fresh m null) ∧ (st.fresh m null).views = st.views ++ [m] := by
  have old : ∀ o ∈ st.objs, o.ptr < st.heap.length := fun o ho => by
    obtain ⟨b', hb', -⟩ := h.live _ ho
    exact (List.getElem?_eq_some_iff.1 hb').1
  refine ⟨⟨?_, ?_⟩, ?_⟩
  · intro o ho
    unfold St.fresh at ho ⊢
    rcases List.mem_append.1 ho with ho | ho
    · rw [List.getElem?_append_left (old o ho)]; exact h.live o ho
    · simp only [List.mem_singleton] at ho
      subst ho
      exact ⟨_, by simp; rfl, by split <;> simp⟩
  · unfold St.fresh
    rw [List.map_append, List.nodup_append]
    refine ⟨h.nodup, by simp, ?_⟩
    intro a ha b hb
    simp only [List.mem_map] at ha
    obtain ⟨o, ho, rfl⟩ := ha
    have := old o ho
    simp at hb
    omega
  · unfold St.views St.fresh
    simp only [List.map_append, List.map_cons, List.map_nil]
    congr 1
    · apply List.map_congr_left
      intro o ho
      unfold denote
      rw [List.getElem?_append_left (old o ho)]
    · cases null with
      | false => simp [denote, Cell.buf]
      | true =>
        simp only [denote, List.getElem?_concat_length, if_true, Option.map_some, Option.getD_some, Cell.buf]
        rw [← hn rfl]

theorem Build.null_elem [Zero α] {b : Build α} {m : Mat α} (h : b.run = .ok m) (hn : b.null = true) : m.elem = [] := by
  cases b with
  | mk1 r =>
    simp only [Build.null, decide_eq_true_eq] at hn
    subst hn
    cases h
    rfl
  | _ => simp [Build.null] at hn

/-! The model's dispatch is the specification's. -/
theorem Build.run_eq [Zero α] (b : Build α) : b.run = b.value := by cases b <;> rfl
theorem InPlace.run_eq [Zero α] (f : InPlace α) (m : Mat α) : f.run m = f.value m := by cases f <;> rfl
theorem Realloc.run_eq [Zero α] (f : Realloc) (m : Mat α) : f.run m = f.value m := by cases f <;> rfl
theorem Derive.run_eq [Zero α] (f : Derive) (m : Mat α) : f.run m = f.value m := by cases f <;> rfl
theorem Combine.run_eq [Zero α] [Add α] [Mul α] (f : Combine) (a b : Mat α) : f.run a b = f.value a b := by cases f <;> rfl

/-- One statement: the heap execution ends like the value execution, with the same values. -/
def Sim [Zero α] [Add α] [Mul α] (x : Res (St α)) (y : Res (List (Mat α))) : Prop :=
  (x >>= fun st => .ok st.views) = y ∧ ∀ st, x = .ok st → Inv st

theorem sim_bind {β : Type} [Zero α] [Add α] [Mul α] (r : Res β) {f : β → Res (St α)} {g : β → Res (List (Mat α))}
    (h : ∀ b, r = .ok b → Sim (f b) (g b)) : Sim (r >>= f) (r >>= g) := by
  cases r with
  | ok b => exact h b rfl
  | _ => exact ⟨rfl, fun st h => by cases h⟩

theorem sim_ub [Zero α] [Add α] [Mul α] : Sim (.ub : Res (St α)) .ub := ⟨rfl, fun st h => by cases h⟩

theorem sim_of [Zero α] [Add α] [Mul α] {x : Res (St α)} {vs : List (Mat α)} (h : ∃ st', x = .ok st' ∧ Inv st' ∧ st'.views = vs) :
    Sim x (.ok vs) := by
  obtain ⟨st', rfl, hi, hv⟩ := h
  exact ⟨by simp [hv], fun st h => by cases h; exact hi⟩

theorem sim_assignLoop [Zero α] [Add α] [Mul α] {i j : Nat} (hij : i ≠ j) {mj : Mat α} (rows cols : Int) {st : St α} (h : Inv st)
    {mi : Mat α} (hi : st.views[i]? = some mi) (hj : st.views[j]? = some mj) :
    Sim (assignLoop st i j rows cols)
      ((forRange 1 rows mi fun this r => forRange 1 cols this fun this c => do
        let v ← mj.getElem2 r c
        this.setElem2 v r c) >>= fun m => .ok (st.views.set i m)) := by
  unfold assignLoop
  rw [forRange_nest, forRange_nest]
  generalize (irange 1 rows).flatMap (fun i => (irange 1 cols).map (fun j => (i, j))) = L
  induction L generalizing st mi with
  | nil =>
    refine sim_of ⟨st, rfl, h, ?_⟩
    apply List.ext_getElem?
    intro n
    rw [List.getElem?_set]
    split
    · subst_vars; rw [if_pos (List.getElem?_eq_some_iff.1 hi).1, hi]
    · rfl
  | cons p L ih =>
    simp only [List.foldlM_cons, bind_assoc]
    rw [view_eq, view_eq, hj, hi]
    simp only [Res.ok_bind]
    refine sim_bind _ (fun v _ => sim_bind _ (fun m' hm' => ?_))
    obtain ⟨st', e, hinv, hv⟩ := store_spec h hi (same_setElem2 hm')
    rw [e]
    simp only [Res.ok_bind]
    have hlt := (List.getElem?_eq_some_iff.1 hi).1
    have := ih hinv (mi := m') (by rw [hv]; simp [hlt]) (by rw [hv, List.getElem?_set_ne hij]; exact hj)
    rw [hv] at this
    simpa only [List.set_set] using this

theorem sim_step [Zero α] [Add α] [Mul α] {st : St α} (h : Inv st) (op : Op α) (hop : op.noSharing) :
    Sim (step st op) (valStep st.views op) := by
  cases op with
  | construct b =>
    show Sim (b.run >>= _) (b.value >>= _)
    rw [← Build.run_eq]
    refine sim_bind _ (fun m hm => sim_of ⟨_, rfl, fresh_spec h (fun hn => Build.null_elem hm hn)⟩)
  | copyCtor i => exact hop.elim
  | derive i d =>
    unfold step valStep
    simp only [view_eq, ← Derive.run_eq]
    cases hv : st.views[i]? with
    | none => exact sim_ub
    | some m =>
      simp only [Res.ok_bind]
      exact sim_bind _ (fun m' _ => sim_of ⟨_, rfl, fresh_spec h (by simp)⟩)
  | combine i j f =>
    unfold step valStep
    simp only [view_eq, ← Combine.run_eq]
    cases hv : st.views[i]? with
    | none => exact sim_ub
    | some m =>
      cases hw : st.views[j]? with
      | none => exact sim_ub
      | some m2 =>
        simp only [Res.ok_bind]
        exact sim_bind _ (fun m' _ => sim_of ⟨_, rfl, fresh_spec h (by simp)⟩)
  | inPlace i f =>
    unfold step valStep
    simp only [view_eq, ← InPlace.run_eq]
    cases hv : st.views[i]? with
    | none => exact sim_ub
    | some m =>
      simp only [Res.ok_bind]
      exact sim_bind _ (fun m' hm' => sim_of (store_spec h hv (f.same hm')))
  | realloc i f =>
    unfold step valStep
    simp only [view_eq, ← Realloc.run_eq]
    cases hv : st.views[i]? with
    | none => exact sim_ub
    | some m =>
      simp only [Res.ok_bind]
      refine sim_bind _ (fun m' hm' => ?_)
      cases hr : f.replaces m with
      | true => rw [if_pos rfl]; exact sim_of (realloc_spec h hv m')
      | false =>
        rw [if_neg (by simp)]
        have := f.same hm' hr
        subst this
        exact sim_of (store_spec h hv (Same.rfl' _))
  | assign i j =>
    unfold step valStep
    simp only [view_eq]
    cases hv : st.views[j]? with
    | none => exact sim_ub
    | some mj =>
      cases hi : st.views[i]? with
      | none => exact sim_ub
      | some mi =>
        simp only [Res.ok_bind]
        unfold Mat.assign
        rw [bind_assoc]
        refine sim_bind _ (fun mi' _ => ?_)
        obtain ⟨st', e, hinv, hv'⟩ := realloc_spec h hi mi'
        rw [e]
        simp only [Res.ok_bind]
        have hlt := (List.getElem?_eq_some_iff.1 hi).1
        have := sim_assignLoop hop mj.rows mj.cols hinv (mi := mi') (by rw [hv']; simp [hlt])
          (by rw [hv', List.getElem?_set_ne hop]; exact hv)
        rw [hv'] at this
        simpa only [List.set_set] using this

/-- C07, partial: for every program that never uses the implicit copy constructor, running it on shared heap buffers
gives exactly what it gives when every matrix is an independent value (including the same failure, if it fails):
a write to, or a resize of, one object never shows in another; in particular `Matrix_copy` and `operator=` make
independent copies. Missing: copy construction, for which the property is false (`C07_refuted_write`,
`C07_refuted_resize`), and assignment of an object to itself (`C07_self_assign`). -/
theorem C07_independent_partial [Zero α] [Add α] [Mul α] (ops : List (Op α)) (h : ∀ op ∈ ops, op.noSharing) :
    (run ops >>= fun st => .ok st.views) = valRun ops := by
  have key : ∀ (ops : List (Op α)) (st : St α), Inv st → (∀ op ∈ ops, op.noSharing) →
      (ops.foldlM step st >>= fun st => .ok st.views) = ops.foldlM valStep st.views := by
    intro ops
    induction ops with
    | nil => intro st _ _; rfl
    | cons op ops ih =>
      intro st hinv hops
      obtain ⟨h1, h2⟩ := sim_step hinv op (hops op (by simp))
      simp only [List.foldlM_cons, bind_assoc]
      rw [← h1]
      cases hs : step st op with
      | ok st' => exact ih st' (h2 st' hs) (fun o ho => hops o (by simp [ho]))
      | _ => rfl
  exact key ops ⟨[], []⟩ ⟨by simp, by simp⟩ h

/-- C07 (self-assignment): `a = a` leaves every object as it was, for a single-shelf matrix. -/
theorem C07_self_assign [Zero α] [Add α] [Mul α] {st : St α} (h : Inv st) {i : Nat} {m : Mat α} (hi : st.views[i]? = some m)
    (hm : Mat.WF m) (hs : m.shel = 1) : ∃ st', step st (.assign i i) = .ok st' ∧ Inv st' ∧ st'.views = st.views := by
  obtain ⟨f, hf⟩ := hm.exists_isMat
  rw [hs] at hf
  obtain ⟨mi', e1, hmi⟩ := Mat.resize_isMat hf (Or.inl (by omega)) hm.rows1 hm.cols1
  have em : mi' = m := by
    refine hmi.ext' hf (fun a b c hi => ?_)
    have : c = 1 := by unfold Mat.InR at hi; omega
    unfold Mat.InR at hi
    subst this
    unfold Mat.resizeF
    rw [if_pos (by omega)]
  subst em
  obtain ⟨st1, e2, hinv1, hv1⟩ := realloc_spec h hi mi'
  have hlt := (List.getElem?_eq_some_iff.1 hi).1
  have hset : st.views.set i mi' = st.views := by
    apply List.ext_getElem?
    intro n
    rw [List.getElem?_set]
    split
    · subst_vars; first | rw [if_pos hlt, hi] | rw [hi]
    · rfl
  rw [hset] at hv1
  have loop : ∀ (L : List (Int × Int)) (st : St α), Inv st → st.views[i]? = some mi' → (∀ p ∈ L, (1 ≤ p.1 ∧ p.1 ≤ mi'.rows) ∧ (1 ≤ p.2 ∧ p.2 ≤ mi'.cols)) →
      ∃ st', L.foldlM (fun (st : St α) (p : Int × Int) => do
        let mj ← st.view i
        let v ← mj.getElem2 p.1 p.2
        let mi ← st.view i
        let mi ← mi.setElem2 v p.1 p.2
        st.store i mi) st = .ok st' ∧ Inv st' ∧ st'.views = st.views := by
    intro L
    induction L with
    | nil => intro st h _ _; exact ⟨st, rfl, h, rfl⟩
    | cons p L ih =>
      intro st h hi hL
      obtain ⟨⟨p1, p2⟩, p3, p4⟩ := hL p (by simp)
      simp only [List.foldlM_cons, view_eq, hi, Res.ok_bind]
      rw [hf.get2 (by omega) p1 p2 p3 p4]
      obtain ⟨m2, e3, hm2⟩ := hf.set2 (by omega) p1 p2 p3 p4 (f p.1 p.2 1)
      have : m2 = mi' := by
        refine hm2.ext' hf (fun a b c _ => ?_)
        unfold Mat.upd
        split
        · rename_i hh; obtain ⟨rfl, rfl, rfl⟩ := hh; rfl
        · rfl
      subst this
      simp only [Res.ok_bind, e3]
      obtain ⟨st', e4, hinv', hv'⟩ := store_spec h hi (Same.rfl' m2)
      have hset : st.views.set i m2 = st.views := by
        apply List.ext_getElem?
        intro n
        rw [List.getElem?_set]
        split
        · subst_vars; rw [if_pos (List.getElem?_eq_some_iff.1 hi).1, hi]
        · rfl
      rw [hset] at hv'
      rw [e4]
      obtain ⟨st'', e5, hinv'', hv''⟩ := ih st' hinv' (by rw [hv']; exact hi) (fun q hq => hL q (by simp [hq]))
      exact ⟨st'', by simpa only [view_eq, Res.ok_bind] using e5, hinv'', by rw [hv'', hv']⟩
  obtain ⟨st2, e3, hinv2, hv2⟩ := loop _ st1 hinv1 (by rw [hv1]; exact hi) (fun p hp => Mat.mem_pairs.1 hp)
  refine ⟨st2, ?_, hinv2, by rw [hv2, hv1]⟩
  unfold step
  simp only [view_eq, hi, Res.ok_bind, e1, e2]
  unfold assignLoop
  rw [forRange_nest]
  simpa only [view_eq] using e3

/-- C07 is false for copy construction: writing to the copy changes the original. -/
theorem C07_refuted_write :
    (run [.construct (.mk3 1 1 1), .copyCtor 0, .inPlace 1 (.setElem2 (5 : Int) 1 1)] >>= fun st => .ok st.views) ≠
      valRun [.construct (.mk3 1 1 1), .copyCtor 0, .inPlace 1 (.setElem2 (5 : Int) 1 1)] ∧
    (run [.construct (.mk3 1 1 1), .copyCtor 0, .inPlace 1 (.setElem2 (5 : Int) 1 1)] >>= fun st => .ok st.views) =
      .ok [⟨1, 1, 1, [some 5]⟩, ⟨1, 1, 1, [some 5]⟩] := by decide

/-- C07 is false for copy construction: resizing (or assigning to) the copy deletes the original's buffer; reading the
original afterwards is undefined. -/
theorem C07_refuted_resize :
    ∃ st : St Int, run [.construct (.mk3 1 1 1), .copyCtor 0, .realloc 1 (.resize 2 2)] = .ok st ∧
      ∃ m, st.view 0 = .ok m ∧ m.getElem2 1 1 = .ub := by
  refine ⟨⟨[⟨1, 1, 1, 0⟩, ⟨2, 2, 1, 1⟩], [.freed, .live [some 0, some 0, some 0, some 0]]⟩, by decide, ⟨1, 1, 1, []⟩, by decide, by decide⟩

/-- C07 is false for copy construction, in general: for every state and every live object, after copy-constructing it
and resizing the copy, no in-range element of the original can be read. -/
theorem C07_refuted_general [Zero α] [Add α] [Mul α] {st st1 st2 : St α} {i : Nat} {r c : Int} (h1 : step st (.copyCtor i) = .ok st1)
    (h2 : step st1 (.realloc st.objs.length (.resize r c)) = .ok st2) :
    ∃ m, st2.view i = .ok m ∧ ∀ a b s, 1 ≤ a → a ≤ m.rows → 1 ≤ b → b ≤ m.cols → 1 ≤ s → s ≤ m.shel → m.getElem3 a b s = .ub := by
  simp only [step, St.copyCtor] at h1
  cases ho : st.objs[i]? with
  | none => rw [ho] at h1; cases h1
  | some o =>
    rw [ho] at h1
    cases h1
    have hlt := (List.getElem?_eq_some_iff.1 ho).1
    simp only [step, St.view, Realloc.run, Realloc.replaces, if_true] at h2
    rw [List.getElem?_append_right (by omega)] at h2
    simp only [Nat.sub_self, List.getElem?_cons_zero, Res.ok_bind] at h2
    obtain ⟨m', _, h3⟩ := Res.bind_eq_ok.1 h2
    unfold St.realloc at h3
    simp only at h3
    rw [List.getElem?_append_right (by omega)] at h3
    simp only [Nat.sub_self, List.getElem?_cons_zero] at h3
    cases hh : st.heap[o.ptr]? with
    | none => rw [hh] at h3; cases h3
    | some x =>
      have hpl := (List.getElem?_eq_some_iff.1 hh).1
      have fin : ∀ heap' : List (Cell α), st2 = ⟨(st.objs ++ [o]).set st.objs.length ⟨m'.rows, m'.cols, m'.shel, st.heap.length⟩, heap'⟩ →
          (heap'[o.ptr]?.map Cell.buf).getD [] = [] →
          ∃ m, st2.view i = .ok m ∧ ∀ a b s, 1 ≤ a → a ≤ m.rows → 1 ≤ b → b ≤ m.cols → 1 ≤ s → s ≤ m.shel → m.getElem3 a b s = .ub := by
        intro heap' hst hv
        subst hst
        refine ⟨⟨o.rows, o.cols, o.shel, []⟩, ?_, ?_⟩
        · unfold St.view
          simp only
          rw [List.getElem?_set_ne (by omega), List.getElem?_append_left hlt, ho]
          simp only [denote, hv]
        · intro a b s a1 a2 a3 a4 a5 a6
          simp only at a2 a4 a6
          unfold Mat.getElem3 Buf.read
          simp only
          repeat' split
          all_goals first | rfl | (exfalso; omega) | (simp at *)
      cases x with
      | freed => rw [hh] at h3; cases h3
      | live b =>
        rw [hh] at h3
        cases h3
        refine fin _ rfl ?_
        rw [List.getElem?_append_left (by simpa using hpl), List.getElem?_set_self (by simpa using hpl)]
        rfl
      | null =>
        rw [hh] at h3
        cases h3
        refine fin _ rfl ?_
        rw [List.getElem?_append_left hpl, hh]
        rfl

example : ∀ op ∈ ([.construct (.mk2 2 3), .derive 0 .copy, .inPlace 1 (.setElem2 (5 : Int) 1 1), .construct (.mk3 1 1 1), .assign 2 1,
    .realloc 2 (.resize 3 3)] : List (Op Int)), op.noSharing := by
  simp [Op.noSharing]
example : (run [.construct (.mk3 1 1 1), .derive 0 .copy, .inPlace 1 (.setElem2 (5 : Int) 1 1)] >>= fun st => .ok st.views) =
    .ok [⟨1, 1, 1, [some 0]⟩, ⟨1, 1, 1, [some 5]⟩] := by decide
example : (step (⟨[⟨1, 1, 1, 0⟩], [.live [some (7 : Int)]]⟩ : St Int) (.assign 0 0)).isOk = true := by decide

end Verif.Heap
