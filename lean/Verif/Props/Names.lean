import Verif.Props.Heap
/-
Property C108: a copy-constructed matrix is another name of the original.
-/
namespace Verif.Heap
variable {α : Type}

/-- Heap and names describe the same situation. -/
structure Rel (st : St α) (w : World α) : Prop where
  vals : w.vals = st.views
  cell : ∀ (a : Nat) (o : Obj), st.objs[a]? = some o → ∃ c, st.heap[o.ptr]? = some c ∧ (w.lost a = true ↔ c = .freed) ∧
    (w.empty a = true ↔ c = .null)
  same : ∀ (a b : Nat) (oa ob : Obj), st.objs[a]? = some oa → st.objs[b]? = some ob → (w.same a b = true ↔ oa.ptr = ob.ptr)
  share : ∀ (a b : Nat) (oa ob : Obj), st.objs[a]? = some oa → st.objs[b]? = some ob → oa.ptr = ob.ptr → oa = ob
  out : ∀ (a b : Nat), st.objs.length ≤ a ∨ st.objs.length ≤ b → w.same a b = decide (a = b)
  outLost : ∀ a, st.objs.length ≤ a → w.lost a = false

/-- The two executions end alike, in related states. -/
def SimW (x : Res (St α)) (y : Res (World α)) : Prop :=
  match x, y with
  | .ok st, .ok w => Rel st w
  | .throw e, .throw e' => e = e'
  | .exit c, .exit c' => c = c'
  | .ub, .ub => True
  | .diverge, .diverge => True
  | _, _ => False

theorem simW_bind {β : Type} (r : Res β) {f : β → Res (St α)} {g : β → Res (World α)}
    (h : ∀ b, r = .ok b → SimW (f b) (g b)) : SimW (r >>= f) (r >>= g) := by
  cases r with
  | ok b => exact h b rfl
  | _ => simp [SimW]

theorem simW_seq {x : Res (St α)} {y : Res (World α)} (h : SimW x y) {f : St α → Res (St α)} {g : World α → Res (World α)}
    (hf : ∀ st w, Rel st w → SimW (f st) (g w)) : SimW (x >>= f) (y >>= g) := by
  cases x <;> cases y <;> simp only [SimW] at h <;> first | exact hf _ _ h | exact h.elim | (simp [SimW, h]; done)

theorem simW_ub : SimW (.ub : Res (St α)) .ub := trivial

theorem Rel.length {st : St α} {w : World α} (h : Rel st w) : w.vals.length = st.objs.length := by
  rw [h.vals]; simp [St.views]

theorem Rel.get {st : St α} {w : World α} (h : Rel st w) (i : Nat) : w.vals[i]? = (st.objs[i]?).map (denote st.heap) := by
  rw [h.vals]; simp [St.views]

theorem Rel.ptr_lt {st : St α} {w : World α} (h : Rel st w) {a : Nat} {o : Obj} (ho : st.objs[a]? = some o) :
    o.ptr < st.heap.length := by
  obtain ⟨c, hc, -⟩ := h.cell a o ho
  exact (List.getElem?_eq_some_iff.1 hc).1

theorem rel_add {st : St α} {w : World α} (h : Rel st w) {m : Mat α} {null : Bool} (hn : null = true → m.elem = []) :
    Rel (st.fresh m null) (w.add m null) := by
  have hlen := h.length
  have old : ∀ {a o}, (st.fresh m null).objs[a]? = some o →
      (a < st.objs.length ∧ st.objs[a]? = some o) ∨ (a = st.objs.length ∧ o = ⟨m.rows, m.cols, m.shel, st.heap.length⟩) := by
    intro a o ho
    unfold St.fresh at ho
    simp only at ho
    rcases Nat.lt_trichotomy a st.objs.length with hl | hl | hl
    · rw [List.getElem?_append_left hl] at ho; exact Or.inl ⟨hl, ho⟩
    · subst hl; simp at ho; exact Or.inr ⟨rfl, ho.symm⟩
    · rw [List.getElem?_append_right (by omega)] at ho
      have : a - st.objs.length ≠ 0 := by omega
      obtain ⟨k, hk⟩ := Nat.exists_eq_succ_of_ne_zero this
      rw [hk] at ho; simp at ho
  have hnew : (st.fresh m null).heap[st.heap.length]? = some (if null then .null else .live m.elem) := by
    unfold St.fresh; simp
  have hold : ∀ p, p < st.heap.length → (st.fresh m null).heap[p]? = st.heap[p]? := by
    intro p hp; unfold St.fresh; exact List.getElem?_append_left hp
  refine ⟨?_, ?_, ?_, ?_, ?_, ?_⟩
  · show w.vals ++ [m] = _
    rw [h.vals]
    unfold St.views St.fresh
    simp only [List.map_append, List.map_cons, List.map_nil]
    congr 1
    · apply List.map_congr_left
      intro o ho
      obtain ⟨a, ha, rfl⟩ := List.mem_iff_getElem.1 ho
      unfold denote
      rw [List.getElem?_append_left (h.ptr_lt (List.getElem?_eq_getElem ha))]
    · cases null with
      | false => simp [denote, Cell.buf]
      | true =>
        simp only [denote, List.getElem?_concat_length, if_true, Option.map_some, Option.getD_some, Cell.buf]
        rw [← hn rfl]
  · intro a o ho
    rcases old ho with ⟨hl, ho⟩ | ⟨rfl, rfl⟩
    · obtain ⟨c, hc, h1, h2⟩ := h.cell a o ho
      refine ⟨c, by rw [hold _ (h.ptr_lt ho)]; exact hc, h1, ?_⟩
      show (if a = w.vals.length then null else w.empty a) = true ↔ _
      rw [if_neg (by omega)]; exact h2
    · refine ⟨_, hnew, ?_, ?_⟩
      · show w.lost _ = true ↔ _
        rw [h.outLost _ (Nat.le_refl _)]
        cases null <;> simp
      · show (if st.objs.length = w.vals.length then null else w.empty _) = true ↔ _
        rw [if_pos hlen.symm]
        cases null <;> simp
  · intro a b oa ob ha hb
    show w.same a b = true ↔ _
    rcases old ha with ⟨hl, ha⟩ | ⟨rfl, rfl⟩ <;> rcases old hb with ⟨hk, hb⟩ | ⟨rfl, rfl⟩
    · exact h.same a b oa ob ha hb
    · rw [h.out _ _ (Or.inr (Nat.le_refl _))]
      have := h.ptr_lt ha
      simp only [decide_eq_true_eq]; omega
    · rw [h.out _ _ (Or.inl (Nat.le_refl _))]
      have := h.ptr_lt hb
      simp only [decide_eq_true_eq]; omega
    · rw [h.out _ _ (Or.inl (Nat.le_refl _))]; simp
  · intro a b oa ob ha hb he
    rcases old ha with ⟨hl, ha⟩ | ⟨rfl, rfl⟩ <;> rcases old hb with ⟨hk, hb⟩ | ⟨rfl, rfl⟩
    · exact h.share a b oa ob ha hb he
    · have := h.ptr_lt ha; simp only at he; omega
    · have := h.ptr_lt hb; simp only at he; omega
    · rfl
  · intro a b hab
    exact h.out a b (by simp only [St.fresh, List.length_append, List.length_singleton] at hab; omega)
  · intro a ha
    exact h.outLost a (by simp only [St.fresh, List.length_append, List.length_singleton] at ha; omega)

theorem rel_alias {st : St α} {w : World α} (h : Rel st w) {i : Nat} {o : Obj} (ho : st.objs[i]? = some o) :
    Rel ⟨st.objs ++ [o], st.heap⟩ (w.alias i (denote st.heap o)) := by
  have hlen := h.length
  have hi := (List.getElem?_eq_some_iff.1 ho).1
  -- the object an index stands for
  have key : ∀ {a oa}, (st.objs ++ [o])[a]? = some oa → st.objs[if a = w.vals.length then i else a]? = some oa := by
    intro a oa ha
    rcases Nat.lt_trichotomy a st.objs.length with hl | hl | hl
    · rw [List.getElem?_append_left hl] at ha; rw [if_neg (by omega)]; exact ha
    · subst hl; simp at ha; rw [if_pos hlen.symm, ho, ha]
    · rw [List.getElem?_append_right (by omega)] at ha
      obtain ⟨k, hk⟩ := Nat.exists_eq_succ_of_ne_zero (show a - st.objs.length ≠ 0 by omega)
      rw [hk] at ha; simp at ha
  refine ⟨?_, ?_, ?_, ?_, ?_, ?_⟩
  · show w.vals ++ [_] = _
    rw [h.vals]; simp [St.views]
  · intro a oa ha
    exact h.cell _ _ (key ha)
  · intro a b oa ob ha hb
    exact h.same _ _ _ _ (key ha) (key hb)
  · intro a b oa ob ha hb he
    exact h.share _ _ _ _ (key ha) (key hb) he
  · intro a b hab
    show w.same (if a = w.vals.length then i else a) (if b = w.vals.length then i else b) = _
    simp only [List.length_append, List.length_singleton] at hab
    rcases hab with hab | hab
    · rw [if_neg (show ¬ a = w.vals.length by omega), h.out _ _ (Or.inl (by omega))]
      by_cases hb : b = w.vals.length
      · rw [if_pos hb]
        rw [decide_eq_false (by omega), decide_eq_false (by omega)]
      · rw [if_neg hb]
    · rw [if_neg (show ¬ b = w.vals.length by omega), h.out _ _ (Or.inr (by omega))]
      by_cases ha : a = w.vals.length
      · rw [if_pos ha]
        rw [decide_eq_false (by omega), decide_eq_false (by omega)]
      · rw [if_neg ha]
  · intro a ha
    simp only [List.length_append, List.length_singleton] at ha
    show w.lost (if a = w.vals.length then i else a) = _
    rw [if_neg (by omega)]
    exact h.outLost a (by omega)

theorem rel_write {st : St α} {w : World α} (h : Rel st w) {i : Nat} {o : Obj} (ho : st.objs[i]? = some o) {m : Mat α}
    (hm : Same (denote st.heap o) m) : SimW (st.store i m) (.ok (w.write i m)) := by
  have hlen := h.length
  have hi := (List.getElem?_eq_some_iff.1 ho).1
  obtain ⟨c, hc, hlost, hempty⟩ := h.cell i o ho
  have hpl := h.ptr_lt ho
  obtain ⟨d1, d2, d3, d4⟩ := hm
  have hobj : st.objs.set i ⟨m.rows, m.cols, m.shel, o.ptr⟩ = st.objs := by
    rw [d1, d2, d3]
    apply List.ext_getElem?
    intro n
    rw [List.getElem?_set]
    split
    · rename_i hin; subst hin; simp only [hi, if_true, ho]; rfl
    · rfl
  have heap' : ∃ heap', st.store i m = .ok ⟨st.objs, heap'⟩ ∧ (∀ p, o.ptr ≠ p → heap'[p]? = st.heap[p]?) ∧
      ∃ c', heap'[o.ptr]? = some c' ∧ (c' = .freed ↔ c = .freed) ∧ (c' = .null ↔ c = .null) ∧ c'.buf = m.elem := by
    have hnil : c.buf = [] → m.elem = [] := by
      intro hb
      have : (denote st.heap o).elem = [] := by unfold denote; rw [hc]; exact hb
      rw [this] at d4
      exact List.length_eq_zero_iff.1 d4
    unfold St.store
    rw [ho]
    simp only [hc, hobj]
    cases c with
    | live b =>
      exact ⟨_, rfl, fun p hp => List.getElem?_set_ne hp, _, List.getElem?_set_self (by simpa using hpl), by simp, by simp, rfl⟩
    | freed => exact ⟨_, rfl, fun _ _ => rfl, .freed, hc, by simp, by simp, (hnil rfl).symm⟩
    | null => exact ⟨_, rfl, fun _ _ => rfl, .null, hc, by simp, by simp, (hnil rfl).symm⟩
  obtain ⟨heap', e', he, c', hc', hf, hn, hbuf⟩ := heap'
  rw [e']
  refine ⟨?_, ?_, h.same, h.share, h.out, h.outLost⟩
  · show w.vals.mapIdx _ = _
    apply List.ext_getElem?
    intro n
    rw [List.getElem?_mapIdx, h.get]
    unfold St.views
    simp only [List.getElem?_map]
    cases hon : st.objs[n]? with
    | none => rfl
    | some on =>
      simp only [Option.map_some]
      congr 1
      by_cases hp : o.ptr = on.ptr
      · rw [if_pos ((h.same i n o on ho hon).2 hp)]
        have := h.share i n o on ho hon hp
        subst this
        unfold denote
        rw [hc']
        simp only [Option.map_some, Option.getD_some, hbuf]
        cases m; simp_all [denote]
      · rw [if_neg (fun hs => hp ((h.same i n o on ho hon).1 hs))]
        unfold denote
        rw [he _ hp]
  · intro a oa ha
    by_cases hp : o.ptr = oa.ptr
    · obtain ⟨c2, hc2, l2, n2⟩ := h.cell a oa ha
      rw [← hp, hc] at hc2
      cases hc2
      exact ⟨c', by rw [← hp]; exact hc', l2.trans hf.symm, n2.trans hn.symm⟩
    · obtain ⟨c2, hc2, l2, n2⟩ := h.cell a oa ha
      exact ⟨c2, by rw [he _ hp]; exact hc2, l2, n2⟩

theorem rel_renew {st : St α} {w : World α} (h : Rel st w) {i : Nat} {o : Obj} (ho : st.objs[i]? = some o) (m : Mat α) :
    SimW (st.realloc i m) (w.doRenew i m) := by
  have hlen := h.length
  have hi := (List.getElem?_eq_some_iff.1 ho).1
  obtain ⟨c, hc, hlost, hempty⟩ := h.cell i o ho
  have hpl := h.ptr_lt ho
  unfold World.doRenew
  by_cases hfr : c = .freed
  · rw [if_pos (hlost.2 hfr)]
    subst hfr
    unfold St.realloc
    rw [ho]
    simp only [hc]
    exact trivial
  · rw [if_neg (fun hl => hfr (hlost.1 hl))]
    have heap' : ∃ heap', st.realloc i m = .ok ⟨st.objs.set i ⟨m.rows, m.cols, m.shel, st.heap.length⟩, heap' ++ [.live m.elem]⟩ ∧
        heap'.length = st.heap.length ∧ (∀ p, o.ptr ≠ p → heap'[p]? = st.heap[p]?) ∧
        ((c = .null ∧ heap'[o.ptr]? = some .null) ∨ (c ≠ .null ∧ heap'[o.ptr]? = some .freed)) := by
      unfold St.realloc
      rw [ho]
      simp only [hc]
      cases c with
      | live b =>
        exact ⟨_, rfl, by simp, fun p hp => List.getElem?_set_ne hp, Or.inr ⟨by simp, List.getElem?_set_self (by simpa using hpl)⟩⟩
      | freed => exact (hfr rfl).elim
      | null => exact ⟨_, rfl, rfl, fun _ _ => rfl, Or.inl ⟨rfl, hc⟩⟩
    obtain ⟨heap', e', hl', he, hcell⟩ := heap'
    rw [e']
    have hbuf0 : (heap'[o.ptr]?.map Cell.buf).getD [] = [] := by
      rcases hcell with ⟨-, h1⟩ | ⟨-, h1⟩ <;> rw [h1] <;> rfl
    -- the objects afterwards
    have obj : ∀ {a oa}, (st.objs.set i ⟨m.rows, m.cols, m.shel, st.heap.length⟩)[a]? = some oa →
        (a = i ∧ oa = ⟨m.rows, m.cols, m.shel, st.heap.length⟩) ∨ (a ≠ i ∧ st.objs[a]? = some oa) := by
      intro a oa ha
      rw [List.getElem?_set] at ha
      split at ha
      · rename_i hia
        subst hia
        cases ha
        exact Or.inl ⟨rfl, rfl⟩
      · rename_i hia
        exact Or.inr ⟨fun hh => hia hh.symm, ha⟩
    have hold : ∀ p, p < st.heap.length → (heap' ++ [Cell.live m.elem])[p]? = heap'[p]? :=
      fun p hp => List.getElem?_append_left (by omega)
    refine ⟨?_, ?_, ?_, ?_, ?_, ?_⟩
    · show w.vals.mapIdx _ = _
      apply List.ext_getElem?
      intro n
      rw [List.getElem?_mapIdx, h.get]
      unfold St.views
      simp only [List.getElem?_map, List.getElem?_set]
      by_cases hin : i = n
      · subst hin
        rw [ho]
        simp only [if_true, hi, Option.map_some]
        simp [denote, Cell.buf, ← hl']
      · rw [if_neg hin]
        cases hon : st.objs[n]? with
        | none => rfl
        | some on =>
          simp only [Option.map_some]
          congr 1
          rw [if_neg (fun hh => hin hh.symm)]
          unfold denote
          rw [hold _ (h.ptr_lt hon)]
          by_cases hp : o.ptr = on.ptr
          · rw [if_pos ((h.same i n o on ho hon).2 hp), ← hp, hbuf0]
          · rw [if_neg (fun hs => hp ((h.same i n o on ho hon).1 hs)), he _ hp]
    · intro a oa ha
      rcases obj ha with ⟨rfl, rfl⟩ | ⟨hai, ha⟩
      · exact ⟨.live m.elem, by simp [← hl'], by simp [World.renew], by simp [World.renew]⟩
      · obtain ⟨c2, hc2, l2, n2⟩ := h.cell a oa ha
        simp only
        rw [hold _ (h.ptr_lt ha)]
        by_cases hp : o.ptr = oa.ptr
        · have hs := (h.same i a o oa ho ha).2 hp
          rw [← hp, hc] at hc2
          cases hc2
          rcases hcell with ⟨h1, h2⟩ | ⟨h1, h2⟩
          · refine ⟨.null, by rw [← hp]; exact h2, ?_, ?_⟩
            · have : w.lost a ≠ true := fun hl => hfr (l2.1 hl)
              simp [World.renew, this, hempty.2 h1]
            · simp [World.renew, hai, n2.2 h1]
          · refine ⟨.freed, by rw [← hp]; exact h2, ?_, ?_⟩
            · have : w.empty i = false := by
                cases hh : w.empty i with
                | false => rfl
                | true => exact (h1 (hempty.1 hh)).elim
              simp [World.renew, hai, hs, this]
            · have : w.empty a ≠ true := fun hl => h1 (n2.1 hl)
              simp [World.renew, this]
        · refine ⟨c2, by rw [he _ hp]; exact hc2, ?_, ?_⟩
          · have : w.same i a = false := by
              cases hh : w.same i a with
              | false => rfl
              | true => exact (hp ((h.same i a o oa ho ha).1 hh)).elim
            simp [World.renew, hai, this, l2]
          · simp [World.renew, hai, n2]
    · intro a b oa ob ha hb
      show (if a = i ∨ b = i then decide (a = b) else w.same a b) = true ↔ _
      rcases obj ha with ⟨hai, hoa⟩ | ⟨hai, ha⟩ <;> rcases obj hb with ⟨hbi, hob⟩ | ⟨hbi, hb⟩
      · subst hoa hob; simp [hai, hbi]
      · rw [if_pos (Or.inl hai)]
        have := h.ptr_lt hb
        subst hoa
        simp only [decide_eq_true_eq]
        constructor
        · intro hh; omega
        · intro hh; omega
      · rw [if_pos (Or.inr hbi)]
        have := h.ptr_lt ha
        subst hob
        simp only [decide_eq_true_eq]
        constructor
        · intro hh; omega
        · intro hh; omega
      · rw [if_neg (by simp [hai, hbi])]
        exact h.same a b oa ob ha hb
    · intro a b oa ob ha hb hp
      rcases obj ha with ⟨hai, hoa⟩ | ⟨hai, ha⟩ <;> rcases obj hb with ⟨hbi, hob⟩ | ⟨hbi, hb⟩
      · rw [hoa, hob]
      · have := h.ptr_lt hb; subst hoa; simp only at hp; omega
      · have := h.ptr_lt ha; subst hob; simp only at hp; omega
      · exact h.share a b oa ob ha hb hp
    · intro a b hab
      simp only [List.length_set] at hab
      show (if a = i ∨ b = i then decide (a = b) else w.same a b) = _
      split
      · rfl
      · exact h.out a b hab
    · intro a ha
      simp only [List.length_set] at ha
      have hai : a ≠ i := by omega
      have : w.same i a = false := by rw [h.out _ _ (Or.inr ha)]; exact decide_eq_false (fun hh => hai hh.symm)
      simp [World.renew, h.outLost a ha, this]

theorem view_rel {st : St α} {w : World α} (h : Rel st w) (i : Nat) :
    st.view i = match w.vals[i]? with | none => .ub | some m => .ok m := by
  rw [view_eq, h.vals]
  cases st.views[i]? <;> rfl

theorem renews_eq (f : Realloc) (m : Mat α) : f.replaces m = decide (f.renews m) := by
  cases f with
  | resize r c => exact (decide_eq_true (by trivial)).symm
  | setRows r => rw [Bool.eq_iff_iff]; unfold Realloc.replaces; rw [decide_eq_true_iff, decide_eq_true_iff]; exact Iff.rfl
  | setCols r => rw [Bool.eq_iff_iff]; unfold Realloc.replaces; rw [decide_eq_true_iff, decide_eq_true_iff]; exact Iff.rfl
  | setShel r => rw [Bool.eq_iff_iff]; unfold Realloc.replaces; rw [decide_eq_true_iff, decide_eq_true_iff]; exact Iff.rfl

theorem simW_doWrite [Zero α] {st : St α} {w : World α} (h : Rel st w) (i : Nat) (f : InPlace α) :
    SimW (st.view i >>= fun m => f.run m >>= fun m' => st.store i m') (w.doWrite i f) := by
  unfold World.doWrite
  rw [view_rel h, h.get]
  cases ho : st.objs[i]? with
  | none => exact simW_ub
  | some o =>
    simp only [Option.map_some, Res.ok_bind, ← InPlace.run_eq]
    exact simW_bind _ (fun m' hm' => rel_write h ho (f.same hm'))

theorem simW_foldlM {β : Type} (l : List β) {f : St α → β → Res (St α)} {g : World α → β → Res (World α)}
    (hfg : ∀ b st w, Rel st w → SimW (f st b) (g w b)) {st : St α} {w : World α} (h : Rel st w) :
    SimW (l.foldlM f st) (l.foldlM g w) := by
  induction l generalizing st w with
  | nil => exact h
  | cons b l ih =>
    simp only [List.foldlM_cons]
    exact simW_seq (hfg b st w h) (fun st' w' h' => ih h')

theorem simW_step [Zero α] [Add α] [Mul α] {st : St α} {w : World α} (h : Rel st w) (op : Op α) : SimW (step st op) (w.step op) := by
  cases op with
  | construct b =>
    show SimW (b.run >>= _) (b.value >>= _)
    rw [← Build.run_eq]
    refine simW_bind _ (fun m hm => ?_)
    have : b.isEmpty = b.null := by
      cases b with
      | mk1 r => rw [Bool.eq_iff_iff]; simp [Build.isEmpty, Build.null]
      | _ => rfl
    rw [this]
    exact rel_add h (fun hn => Build.null_elem hm hn)
  | copyCtor i =>
    show SimW (st.copyCtor i) (match w.vals[i]? with | none => _ | some m => _)
    rw [h.get]
    unfold St.copyCtor
    cases ho : st.objs[i]? with
    | none => exact simW_ub
    | some o => exact rel_alias h ho
  | derive i d =>
    show SimW (st.view i >>= _) (match w.vals[i]? with | none => _ | some m => _)
    rw [view_rel h]
    cases hv : w.vals[i]? with
    | none => exact simW_ub
    | some m =>
      simp only [Res.ok_bind, ← Derive.run_eq]
      exact simW_bind _ (fun m' _ => rel_add h (by simp))
  | combine i j f =>
    show SimW (st.view i >>= fun mi => st.view j >>= _) (match w.vals[i]?, w.vals[j]? with | some mi, some mj => _ | _, _ => _)
    rw [view_rel h, view_rel h]
    cases hv : w.vals[i]? with
    | none => exact simW_ub
    | some m =>
      cases hw : w.vals[j]? with
      | none => exact simW_ub
      | some m2 =>
        simp only [Res.ok_bind, ← Combine.run_eq]
        exact simW_bind _ (fun m' _ => rel_add h (by simp))
  | inPlace i f => exact simW_doWrite h i f
  | realloc i f =>
    show SimW (st.view i >>= _) (match w.vals[i]? with | none => _ | some m => _)
    rw [view_rel h, h.get]
    cases ho : st.objs[i]? with
    | none => exact simW_ub
    | some o =>
      simp only [Option.map_some, Res.ok_bind, ← Realloc.run_eq, renews_eq, decide_eq_true_eq]
      refine simW_bind _ (fun m' hm' => ?_)
      by_cases hr : f.renews (denote st.heap o)
      · rw [if_pos hr, if_pos hr]
        exact rel_renew h ho m'
      · rw [if_neg hr, if_neg hr]
        have := f.same hm' (by rw [renews_eq]; exact decide_eq_false hr)
        subst this
        have hw := rel_write h ho (Same.rfl' (denote st.heap o))
        have hid : w.write i (denote st.heap o) = w := by
          unfold World.write
          cases w with
          | mk vals same lost empty =>
            congr 1
            apply List.ext_getElem?
            intro n
            rw [List.getElem?_mapIdx]
            have hg := h.get n
            simp only at hg
            cases hon : st.objs[n]? with
            | none => rw [hon] at hg; simp only [Option.map_none] at hg; rw [hg]; rfl
            | some on =>
              rw [hon] at hg
              simp only [Option.map_some] at hg
              rw [hg]
              simp only [Option.map_some]
              split
              · rename_i hs
                rw [h.share i n o on ho hon ((h.same i n o on ho hon).1 hs)]
              · rfl
        rw [hid] at hw
        exact hw
  | assign i j =>
    show SimW (st.view j >>= fun mj => st.view i >>= _) (match w.vals[i]?, w.vals[j]? with | some mi, some mj => _ | _, _ => _)
    rw [view_rel h, view_rel h, h.get i]
    cases hv : w.vals[j]? with
    | none =>
      cases ho : st.objs[i]? with
      | none => exact simW_ub
      | some o => exact simW_ub
    | some mj =>
      cases ho : st.objs[i]? with
      | none => exact simW_ub
      | some o =>
        simp only [Option.map_some, Res.ok_bind]
        refine simW_bind _ (fun m' hm' => ?_)
        refine simW_seq (rel_renew h ho m') (fun st' w' h' => ?_)
        unfold assignLoop
        refine simW_foldlM _ (fun r st w h => simW_foldlM _ (fun c st w h => ?_) h) h'
        rw [view_rel h j]
        cases hj : w.vals[j]? with
        | none => exact simW_ub
        | some src =>
          simp only [Res.ok_bind]
          exact simW_bind _ (fun v _ => simW_doWrite h i (.setElem2 v r c))

theorem simW_run [Zero α] [Add α] [Mul α] (ops : List (Op α)) : SimW (run ops) (World.run ops) :=
  simW_foldlM ops (fun op st w h => simW_step h op)
    ⟨rfl, by simp, by simp, by simp, by simp, by simp⟩

/-- C108: for every program - whatever it constructs, copies, assigns, resizes and writes, in whatever order - the matrices
it sees are those of the reading in which a copy-constructed object is another name of its original: a write through one
name shows in all names, and an object that is resized or assigned to gets a matrix of its own, leaving the other names
without their numbers. The two executions also fail alike. -/
theorem C108_names [Zero α] [Add α] [Mul α] (ops : List (Op α)) :
    (run ops >>= fun st => .ok st.views) = (World.run ops >>= fun w => .ok w.vals) := by
  have h := simW_run ops
  cases hx : run ops <;> cases hy : World.run ops <;> rw [hx, hy] at h <;>
    first
    | exact h.elim
    | (have hv := Rel.vals h; simp [hv]; done)
    | (have h' : _ = _ := h; rw [h']; rfl)
    | rfl

theorem World.same_foldlM {β : Type} {a b : Nat} (l : List β) {g : World α → β → Res (World α)}
    (hg : ∀ x w w', g w x = .ok w' → w.same a b = true → w'.same a b = true) {w w' : World α} (h : l.foldlM g w = .ok w')
    (hs : w.same a b = true) : w'.same a b = true := by
  induction l generalizing w with
  | nil => cases h; exact hs
  | cons x l ih =>
    rw [List.foldlM_cons] at h
    obtain ⟨w1, h1, h2⟩ := Res.bind_eq_ok.1 h
    exact ih h2 (hg x w w1 h1 hs)

theorem World.same_doWrite [Zero α] {a b i : Nat} {f : InPlace α} {w w' : World α} (h : w.doWrite i f = .ok w')
    (hs : w.same a b = true) : w'.same a b = true := by
  unfold World.doWrite at h
  split at h
  · cases h
  · obtain ⟨m', -, e⟩ := Res.bind_eq_ok.1 h
    cases e; exact hs

theorem World.same_doRenew {a b i : Nat} {m : Mat α} {w w' : World α} (h : w.doRenew i m = .ok w')
    (hs : w.same a b = true) (ha : i ≠ a) (hb : i ≠ b) : w'.same a b = true := by
  unfold World.doRenew at h
  split at h
  · cases h
  · cases h
    show (if a = i ∨ b = i then decide (a = b) else w.same a b) = true
    rw [if_neg (by omega)]
    exact hs

theorem World.same_step [Zero α] [Add α] [Mul α] {a b : Nat} {op : Op α} {w w' : World α} (h : w.step op = .ok w')
    (la : a < w.vals.length) (lb : b < w.vals.length)
    (hs : w.same a b = true) (ha : ¬ op.mayRenew a) (hb : ¬ op.mayRenew b) : w'.same a b = true := by
  cases op with
  | construct x =>
    obtain ⟨m, -, e⟩ := Res.bind_eq_ok.1 h
    cases e; exact hs
  | copyCtor i =>
    simp only [World.step] at h
    split at h
    · cases h
    · cases h
      show w.same (if a = w.vals.length then i else a) (if b = w.vals.length then i else b) = true
      rw [if_neg (by omega), if_neg (by omega)]
      exact hs
  | derive i d =>
    simp only [World.step] at h
    split at h
    · cases h
    · obtain ⟨m, -, e⟩ := Res.bind_eq_ok.1 h
      cases e; exact hs
  | combine i j f =>
    simp only [World.step] at h
    split at h
    · obtain ⟨m, -, e⟩ := Res.bind_eq_ok.1 h
      cases e; exact hs
    · cases h
  | inPlace i f => exact World.same_doWrite h hs
  | realloc i f =>
    simp only [World.step] at h
    split at h
    · cases h
    · obtain ⟨m, -, e⟩ := Res.bind_eq_ok.1 h
      split at e
      · exact World.same_doRenew e hs ha hb
      · cases e; exact hs
  | assign i j =>
    simp only [World.step] at h
    split at h
    · obtain ⟨m, -, e⟩ := Res.bind_eq_ok.1 h
      obtain ⟨w1, e1, e2⟩ := Res.bind_eq_ok.1 e
      refine World.same_foldlM _ (fun r w w' h hs => World.same_foldlM _ (fun c w w' h hs => ?_) h hs) e2 (World.same_doRenew e1 hs ha hb)
      split at h
      · cases h
      · obtain ⟨v, -, e⟩ := Res.bind_eq_ok.1 h
        exact World.same_doWrite e hs
    · cases h

theorem SimW.ok {x : Res (St α)} {y : Res (World α)} (h : SimW x y) {st : St α} (hx : x = .ok st) : ∃ w, y = .ok w ∧ Rel st w := by
  subst hx
  cases y with
  | ok w => exact ⟨w, rfl, h⟩
  | _ => exact h.elim

theorem length_assignLoop {i j : Nat} {rows cols : Int} {st st' : St α} (h : assignLoop st i j rows cols = .ok st') :
    st'.objs.length = st.objs.length := by
  have fold : ∀ {β : Type} (l : List β) (f : St α → β → Res (St α)), (∀ b st st', f st b = .ok st' → st'.objs.length = st.objs.length) →
      ∀ {st st' : St α}, l.foldlM f st = .ok st' → st'.objs.length = st.objs.length := by
    intro β l f hf
    induction l with
    | nil => intro st st' h; cases h; rfl
    | cons x l ih =>
      intro st st' h
      rw [List.foldlM_cons] at h
      obtain ⟨s1, h1, h2⟩ := Res.bind_eq_ok.1 h
      rw [ih h2, hf _ _ _ h1]
  refine fold _ _ (fun r st st' h => fold _ _ (fun c st st' h => ?_) h) h
  obtain ⟨m, -, h⟩ := Res.bind_eq_ok.1 h
  obtain ⟨v, -, h⟩ := Res.bind_eq_ok.1 h
  obtain ⟨m2, -, h⟩ := Res.bind_eq_ok.1 h
  obtain ⟨m3, -, h⟩ := Res.bind_eq_ok.1 h
  unfold St.store at h
  split at h
  · cases h
  · cases h; simp

theorem length_store {i : Nat} {m : Mat α} {st st' : St α} (h : st.store i m = .ok st') : st'.objs.length = st.objs.length := by
  unfold St.store at h
  split at h
  · cases h
  · cases h; simp

theorem length_realloc {i : Nat} {m : Mat α} {st st' : St α} (h : st.realloc i m = .ok st') : st'.objs.length = st.objs.length := by
  unfold St.realloc at h
  split at h
  · cases h
  · split at h
    · cases h; simp
    · cases h; simp
    · cases h

theorem length_step [Zero α] [Add α] [Mul α] {op : Op α} {st st' : St α} (h : step st op = .ok st') : st.objs.length ≤ st'.objs.length := by
  cases op with
  | construct b =>
    obtain ⟨m, -, e⟩ := Res.bind_eq_ok.1 h
    cases e; simp [St.fresh]
  | copyCtor i =>
    simp only [step, St.copyCtor] at h
    split at h
    · cases h
    · cases h; simp
  | derive i d =>
    obtain ⟨m, -, h⟩ := Res.bind_eq_ok.1 h
    obtain ⟨m, -, e⟩ := Res.bind_eq_ok.1 h
    cases e; simp [St.fresh]
  | combine i j f =>
    obtain ⟨m, -, h⟩ := Res.bind_eq_ok.1 h
    obtain ⟨m, -, h⟩ := Res.bind_eq_ok.1 h
    obtain ⟨m, -, e⟩ := Res.bind_eq_ok.1 h
    cases e; simp [St.fresh]
  | inPlace i f =>
    obtain ⟨m, -, h⟩ := Res.bind_eq_ok.1 h
    obtain ⟨m, -, e⟩ := Res.bind_eq_ok.1 h
    exact Nat.le_of_eq (length_store e).symm
  | realloc i f =>
    obtain ⟨m, -, h⟩ := Res.bind_eq_ok.1 h
    obtain ⟨m, -, e⟩ := Res.bind_eq_ok.1 h
    split at e
    · exact Nat.le_of_eq (length_realloc e).symm
    · exact Nat.le_of_eq (length_store e).symm
  | assign i j =>
    obtain ⟨m, -, h⟩ := Res.bind_eq_ok.1 h
    obtain ⟨m, -, h⟩ := Res.bind_eq_ok.1 h
    obtain ⟨m, -, h⟩ := Res.bind_eq_ok.1 h
    obtain ⟨st1, h1, e⟩ := Res.bind_eq_ok.1 h
    exact Nat.le_of_eq ((length_assignLoop e).trans (length_realloc h1)).symm

/-- C108, in the program's own terms: after `Matrix b(a)`, and for as long as neither `a` nor `b` is resized or assigned to,
`a` and `b` are equal, whatever is written through either of them and whatever happens to other objects. -/
theorem C108_stay_equal [Zero α] [Add α] [Mul α] {before after : List (Op α)} {i : Nat} {st st' : St α}
    (hb : run before = .ok st) (ha : run (before ++ .copyCtor i :: after) = .ok st')
    (h1 : ∀ op ∈ after, ¬ op.mayRenew i) (h2 : ∀ op ∈ after, ¬ op.mayRenew st.objs.length) :
    st'.view st.objs.length = st'.view i := by
  obtain ⟨w, hw, hr⟩ := (simW_run before).ok hb
  unfold run at ha hb
  rw [List.foldlM_append, hb] at ha
  simp only [Res.ok_bind, List.foldlM_cons] at ha
  obtain ⟨st1, e1, e2⟩ := Res.bind_eq_ok.1 ha
  obtain ⟨w1, hw1, hr1⟩ := (simW_step hr (.copyCtor i)).ok e1
  have e1' := e1
  simp only [step, St.copyCtor] at e1
  cases ho : st.objs[i]? with
  | none => rw [ho] at e1; cases e1
  | some o =>
    rw [ho] at e1
    cases e1
    have hi := (List.getElem?_eq_some_iff.1 ho).1
    have hs : w1.same i st.objs.length = true :=
      (hr1.same i st.objs.length o o (by simp only; rw [List.getElem?_append_left hi, ho]) (by simp)).2 rfl
    have key : ∀ (ops : List (Op α)) (s s' : St α) (w : World α), Rel s w → ops.foldlM step s = .ok s' → w.same i st.objs.length = true →
        st.objs.length < s.objs.length → (∀ op ∈ ops, ¬ op.mayRenew i) → (∀ op ∈ ops, ¬ op.mayRenew st.objs.length) →
        ∃ w', Rel s' w' ∧ w'.same i st.objs.length = true ∧ st.objs.length < s'.objs.length := by
      intro ops
      induction ops with
      | nil => intro s s' w hr h hs hl _ _; cases h; exact ⟨w, hr, hs, hl⟩
      | cons op ops ih =>
        intro s s' w hr h hs hl g1 g2
        rw [List.foldlM_cons] at h
        obtain ⟨s1, h1, h2⟩ := Res.bind_eq_ok.1 h
        obtain ⟨w1, hw1, hr1⟩ := (simW_step hr op).ok h1
        refine ih s1 s' w1 hr1 h2 ?_ (Nat.lt_of_lt_of_le hl (length_step h1)) (fun o ho => g1 o (by simp [ho])) (fun o ho => g2 o (by simp [ho]))
        exact World.same_step hw1 (by rw [hr.length]; omega) (by rw [hr.length]; omega) hs (g1 op (by simp)) (g2 op (by simp))
    obtain ⟨w', hr', hs', hl'⟩ := key after _ st' w1 hr1 e2 hs (by simp) h1 h2
    have hi' : i < st'.objs.length := by omega
    have := hr'.share i st.objs.length _ _ (List.getElem?_eq_getElem hi') (List.getElem?_eq_getElem hl')
      ((hr'.same i st.objs.length _ _ (List.getElem?_eq_getElem hi') (List.getElem?_eq_getElem hl')).1 hs')
    unfold St.view
    rw [List.getElem?_eq_getElem hi', List.getElem?_eq_getElem hl', this]

/-- A copy, a write through the copy, a third object, a write through the original: both names show both writes. -/
example : (run [.construct (.mk2 1 2), .copyCtor 0, .inPlace 1 (.setElem2 (5 : Int) 1 1), .derive 1 .copy,
      .inPlace 0 (.setElem2 7 1 2)] >>= fun st => .ok st.views) =
    .ok [⟨1, 2, 1, [some 5, some 7]⟩, ⟨1, 2, 1, [some 5, some 7]⟩, ⟨1, 2, 1, [some 5, some 0]⟩] := by decide
/-- The names reading of resizing the copy: the original loses its numbers; resizing it as well is undefined. -/
example : (World.run [.construct (.mk2 1 1), .copyCtor 0, .realloc 1 (.resize 1 2), .inPlace 1 (.setElem2 (5 : Int) 1 2)] >>=
      fun w => .ok w.vals) = .ok [⟨1, 1, 1, []⟩, ⟨1, 2, 1, [some 0, some 5]⟩] := by decide
example : (World.run ([.construct (.mk2 1 1), .copyCtor 0, .realloc 1 (.resize 1 2), .realloc 0 (.setRows 2)] : List (Op Int)) >>=
      fun w => .ok w.vals) = .ub := by decide
/-- `Matrix(0)` owns nothing: a copy and the original can both be resized. -/
example : (World.run ([.construct (.mk1 0), .copyCtor 0, .realloc 1 (.resize 1 1), .realloc 0 (.resize 1 1)] : List (Op Int)) >>=
      fun w => .ok w.vals) = .ok [⟨1, 1, 1, [some 0]⟩, ⟨1, 1, 1, [some 0]⟩] := by decide

end Verif.Heap
