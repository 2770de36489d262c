import Verif.Spec.Schedule
import Verif.Props.QCSwap
import Verif.Props.QCBlocks
/-
Property C107: the exact outcome of computing a swap order, and of unscrambling, for every list of matches.
-/
namespace Verif.QC
open Verif.Mat
variable {α : Type}

/-! ### following requests -/

theorem Leads.trans {E : List (Int × Int)} {a b c : Int} (h : Leads E a b) (h2 : Leads E b c) : Leads E a c := by
  induction h with
  | here => exact h2
  | step hm _ ih => exact .step hm (ih h2)

theorem Leads.mono {E F : List (Int × Int)} (hs : ∀ p ∈ E, p ∈ F) {a b : Int} (h : Leads E a b) : Leads F a b := by
  induction h with
  | here => exact .here _
  | step hm _ ih => exact .step (hs _ hm) ih

private theorem fst_unique {E : List (Int × Int)} (hn : (E.map Prod.fst).Nodup) {t s s' : Int} (h : (t, s) ∈ E) (h' : (t, s') ∈ E) :
    s = s' := by
  induction E with
  | nil => cases h
  | cons e E ih =>
    rw [List.map_cons, List.nodup_cons] at hn
    rcases List.mem_cons.1 h with rfl | h1 <;> rcases List.mem_cons.1 h' with h2 | h2
    · cases h2; rfl
    · exact absurd (List.mem_map.2 ⟨_, h2, rfl⟩) hn.1
    · subst h2; exact absurd (List.mem_map.2 ⟨_, h1, rfl⟩) hn.1
    · exact ih hn.2 h1 h2

/-- Where the requests lead, outside the positions served, is unique. -/
theorem Leads.unique {E : List (Int × Int)} (hn : (E.map Prod.fst).Nodup) {a b c : Int} (h : Leads E a b) (h2 : Leads E a c)
    (hb : b ∉ E.map Prod.fst) (hc : c ∉ E.map Prod.fst) : b = c := by
  induction h with
  | here =>
    cases h2 with
    | here => rfl
    | step hm _ => exact absurd (List.mem_map.2 ⟨_, hm, rfl⟩) hb
  | step hm _ ih =>
    cases h2 with
    | here => exact absurd (List.mem_map.2 ⟨_, hm, rfl⟩) hc
    | step hm2 h2 =>
      have := fst_unique hn hm hm2
      subst this
      exact ih h2 hb

/-- `c` is what has become of the request `q` once `E` is served. -/
private def Now (E : List (Int × Int)) (q c : Int × Int) : Prop :=
  c.1 = q.1 ∧ Leads E q.2 c.2 ∧ c.2 ∉ E.map Prod.fst

private theorem Now.iff {E : List (Int × Int)} (hn : (E.map Prod.fst).Nodup) {q c : Int × Int} (h : Now E q c) {u : Int}
    (hu : u ∉ E.map Prod.fst) : Leads E q.2 u ↔ c.2 = u :=
  ⟨fun hl => Leads.unique hn h.2.1 hl h.2.2 hu, fun e => e ▸ h.2.1⟩

private theorem Now.step {E : List (Int × Int)} {p c q d : Int × Int} (hp : Now E p c) (hq : Now E q d)
    (hok : c.2 ≠ p.1 ∨ d.2 ≠ p.1) : Now (E ++ [p]) q (repl c.1 c.2 d) := by
  have sub : ∀ x ∈ E, x ∈ E ++ [p] := fun x hx => List.mem_append_left _ hx
  refine ⟨hq.1, ?_, ?_⟩
  · simp only [repl]
    split
    · rename_i e
      refine (hq.2.1.mono sub).trans (.step (s := p.2) ?_ (hp.2.1.mono sub))
      rw [e, hp.1]
      simp
    · exact hq.2.1.mono sub
  · simp only [repl, List.map_append, List.map_cons, List.map_nil, List.mem_append, List.mem_singleton, not_or]
    rw [hp.1]
    split
    · rename_i e
      exact ⟨hp.2.2, hok.resolve_right (by rw [e]; simp)⟩
    · rename_i e
      exact ⟨hq.2.2, e⟩

/-- `Clash` once `served` is served. -/
private def ClashFrom (E first second : List (Int × Int)) : Prop :=
  ∃ served p rest q, first = served ++ p :: rest ∧ q ∈ rest ++ second ∧ Leads (E ++ served) p.2 p.1 ∧ Leads (E ++ served) q.2 p.1

private theorem clashFrom_nil (E A : List (Int × Int)) : ¬ ClashFrom E [] A := by
  rintro ⟨s, p, r, q, h, -⟩
  simp at h

private theorem clashFrom_cons (E : List (Int × Int)) (p : Int × Int) (B A : List (Int × Int)) :
    ClashFrom E (p :: B) A ↔ (Leads E p.2 p.1 ∧ ∃ q ∈ B ++ A, Leads E q.2 p.1) ∨ ClashFrom (E ++ [p]) B A := by
  constructor
  · rintro ⟨s, p', r, q, h, hq, h1, h2⟩
    cases s with
    | nil =>
      simp only [List.nil_append, List.cons.injEq] at h
      obtain ⟨rfl, rfl⟩ := h
      rw [List.append_nil] at h1 h2
      exact Or.inl ⟨h1, q, hq, h2⟩
    | cons x s =>
      simp only [List.cons_append, List.cons.injEq] at h
      obtain ⟨rfl, rfl⟩ := h
      exact Or.inr ⟨s, p', r, q, rfl, hq, by simpa using h1, by simpa using h2⟩
  · rintro (⟨h1, q, hq, h2⟩ | ⟨s, p', r, q, rfl, hq, h1, h2⟩)
    · exact ⟨[], p, B, q, rfl, hq, by simpa using h1, by simpa using h2⟩
    · exact ⟨p :: s, p', r, q, rfl, hq, by simpa using h1, by simpa using h2⟩

private theorem Rel2.mem_right {β γ : Type} {R : β → γ → Prop} : ∀ {l : List β} {k : List γ}, Rel2 R l k → ∀ c ∈ k, ∃ q ∈ l, R q c
  | _, _, .nil, c, hc => by cases hc
  | _, _, .cons h t, c, hc => by
    rcases List.mem_cons.1 hc with rfl | hc
    · exact ⟨_, by simp, h⟩
    · obtain ⟨q, hq, hr⟩ := Rel2.mem_right t c hc
      exact ⟨q, by simp [hq], hr⟩

private theorem Rel2.map2 {β γ δ : Type} {R : β → γ → Prop} {R' : β → δ → Prop} {g : γ → δ} :
    ∀ {l : List β} {k : List γ}, Rel2 R l k → (∀ q c, c ∈ k → R q c → R' q (g c)) → Rel2 R' l (k.map g)
  | _, _, .nil, _ => .nil
  | _, _, .cons h t, hg => .cons (hg _ _ (by simp) h) (Rel2.map2 t (fun q c hc => hg q c (by simp [hc])))

private theorem Rel2.mem_left {β γ : Type} {R : β → γ → Prop} : ∀ {l : List β} {k : List γ}, Rel2 R l k → ∀ q ∈ l, ∃ c ∈ k, R q c
  | _, _, .nil, c, hc => by cases hc
  | _, _, .cons h t, c, hc => by
    rcases List.mem_cons.1 hc with rfl | hc
    · exact ⟨_, by simp, h⟩
    · obtain ⟨q, hq, hr⟩ := Rel2.mem_left t c hc
      exact ⟨q, by simp [hq], hr⟩

/-- `out` is what has become of the requests `L`, each after those before it. -/
private def Served (E L out : List (Int × Int)) : Prop :=
  out.length = L.length ∧ ∀ (i : Nat) (q c : Int × Int), L[i]? = some q → out[i]? = some c → Now (E ++ L.take i) q c

private theorem Served.cons {E L out : List (Int × Int)} {p c : Int × Int} (hp : Now E p c) (h : Served (E ++ [p]) L out) :
    Served E (p :: L) (c :: out) := by
  refine ⟨by simp [h.1], ?_⟩
  intro i q d hq hd
  cases i with
  | zero => simp only [List.getElem?_cons_zero, Option.some.injEq] at hq hd; subst hq hd; simpa using hp
  | succ i =>
    simp only [List.getElem?_cons_succ] at hq hd
    have := h.2 i q d hq hd
    simpa using this

private theorem phaseB : ∀ (n : Nat) (B A cB cA E : List (Int × Int)), B.length = n → ((E ++ B).map Prod.fst).Nodup →
    Rel2 (Now E) B cB → Rel2 (Now E) A cA →
    (refreshB cB cA = .diverge ∧ ClashFrom E B A) ∨
    (¬ ClashFrom E B A ∧ ∃ B' A', refreshB cB cA = .ok (B', A') ∧ Served E B B' ∧ Rel2 (Now (E ++ B)) A A') := by
  intro n
  induction n with
  | zero =>
    intro B A cB cA E hl hn hB hA
    rw [List.eq_nil_of_length_eq_zero hl] at hB ⊢
    cases hB
    exact Or.inr ⟨clashFrom_nil _ _, [], cA, rfl, ⟨rfl, by simp⟩, by simpa using hA⟩
  | succ n ih =>
    intro B A cB cA E hl hn hB hA
    cases hB with
    | nil => simp at hl
    | @cons p c B cB hp hB =>
      have hnE : (E.map Prod.fst).Nodup := by
        rw [List.map_append, List.nodup_append] at hn; exact hn.1
      have hfr : p.1 ∉ E.map Prod.fst := by
        intro hm
        rw [List.map_append, List.nodup_append] at hn
        exact hn.2.2 _ hm _ (by simp) rfl
      rw [refreshB_cons, clashFrom_cons]
      by_cases hd : c.2 = p.1 ∧ ∃ d ∈ cB ++ cA, d.2 = p.1
      · left
        obtain ⟨h1, d, hd, h2⟩ := hd
        have e1 : c.1 = c.2 := by rw [hp.1, h1]
        constructor
        · rcases List.mem_append.1 hd with hd | hd
          · rw [e1, sweep_diverge ⟨d, hd, by rw [h2, h1]⟩]; rfl
          · rcases sweep_cases c.1 c.2 cB with e | e
            · rw [e]; rfl
            · rw [e]
              simp only [Res.ok_bind]
              rw [e1, sweep_diverge ⟨d, hd, by rw [h2, h1]⟩]; rfl
        · left
          refine ⟨(hp.iff hnE hfr).2 h1, ?_⟩
          rcases List.mem_append.1 hd with hd | hd
          · obtain ⟨q, hq, hr⟩ := Rel2.mem_right hB d hd
            exact ⟨q, List.mem_append_left _ hq, (hr.iff hnE hfr).2 h2⟩
          · obtain ⟨q, hq, hr⟩ := Rel2.mem_right hA d hd
            exact ⟨q, List.mem_append_right _ hq, (hr.iff hnE hfr).2 h2⟩
      · have side : ∀ d ∈ cB ++ cA, c.2 ≠ p.1 ∨ d.2 ≠ p.1 := by
          intro d hdm
          by_cases e : c.2 = p.1
          · exact Or.inr fun e2 => hd ⟨e, d, hdm, e2⟩
          · exact Or.inl e
        have hno : ¬ (Leads E p.2 p.1 ∧ ∃ q ∈ B ++ A, Leads E q.2 p.1) := by
          rintro ⟨h1, q, hq, h2⟩
          refine hd ⟨(hp.iff hnE hfr).1 h1, ?_⟩
          rcases List.mem_append.1 hq with hq | hq
          · obtain ⟨d, hdm, hr⟩ := Rel2.mem_left hB q hq
            exact ⟨d, List.mem_append_left _ hdm, (hr.iff hnE hfr).1 h2⟩
          · obtain ⟨d, hdm, hr⟩ := Rel2.mem_left hA q hq
            exact ⟨d, List.mem_append_right _ hdm, (hr.iff hnE hfr).1 h2⟩
        have sw : ∀ l : List (Int × Int), (∀ d ∈ l, d ∈ cB ++ cA) → sweep c.1 c.2 l = .ok (l.map (repl c.1 c.2)) := by
          intro l hsub
          apply sweep_ok
          rw [hp.1]
          by_cases e : c.2 = p.1
          · exact Or.inr fun d hdm => (side d (hsub d hdm)).resolve_left (by simp [e])
          · exact Or.inl e
        rw [sw cB (fun d h => List.mem_append_left _ h)]
        simp only [Res.ok_bind]
        rw [sw cA (fun d h => List.mem_append_right _ h)]
        simp only [Res.ok_bind]
        have hB' : Rel2 (Now (E ++ [p])) B (cB.map (repl c.1 c.2)) :=
          Rel2.map2 hB fun q d hdm hr => Now.step hp hr (side d (List.mem_append_left _ hdm))
        have hA' : Rel2 (Now (E ++ [p])) A (cA.map (repl c.1 c.2)) :=
          Rel2.map2 hA fun q d hdm hr => Now.step hp hr (side d (List.mem_append_right _ hdm))
        rcases ih B A _ _ (E ++ [p]) (by simpa using hl) (by simpa using hn) hB' hA' with ⟨e, h⟩ | ⟨h, B', A', e, h1, h2⟩
        · left
          exact ⟨by rw [e]; rfl, Or.inr h⟩
        · right
          refine ⟨by rintro (h' | h'); exacts [hno h', h h'], c :: B', A', by rw [e]; rfl, Served.cons hp h1, by simpa using h2⟩

/-- The one-list overload is the loop over `monBmatch` with nothing after it. -/
private theorem tail_eq_refreshB : ∀ (n : Nat) (L : List (Int × Int)), L.length = n →
    refreshTail (fun _ => true) L = (refreshB L [] >>= fun r => .ok r.1) := by
  intro n
  induction n with
  | zero => intro L h; rw [List.eq_nil_of_length_eq_zero h]; rfl
  | succ n ih =>
    intro L h
    cases L with
    | nil => simp at h
    | cons p L =>
      rw [refreshTail_cons, refreshB_cons]
      simp only [if_true]
      rcases sweep_cases p.1 p.2 L with e | e
      · rw [e]; rfl
      · rw [e]
        simp only [Res.ok_bind, sweep]
        rw [ih _ (by simpa using h)]
        cases refreshB (L.map (repl p.1 p.2)) [] <;> rfl

/-- As `Now`, or the block is already in its place according to `D`. -/
private def NowOr (E D : List (Int × Int)) (q c : Int × Int) : Prop :=
  c.1 = q.1 ∧ Leads E q.2 c.2 ∧ (c.2 ∉ E.map Prod.fst ∨ (c.2, c.2) ∈ D)

private theorem phaseA : ∀ (n : Nat) (A cA E D : List (Int × Int)), A.length = n → Rel2 (NowOr E D) A cA →
    ∃ R, refreshTail (fun p => p.1 ≠ p.2) cA = .ok R ∧ R.length = A.length ∧
      ∀ (i : Nat) (q c : Int × Int), A[i]? = some q → R[i]? = some c → NowOr (E ++ A.take i) (D ++ R.take i) q c := by
  intro n
  induction n with
  | zero =>
    intro A cA E D hl hA
    rw [List.eq_nil_of_length_eq_zero hl] at hA ⊢
    cases hA
    exact ⟨[], rfl, rfl, by simp⟩
  | succ n ih =>
    intro A cA E D hl hA
    cases hA with
    | nil => simp at hl
    | @cons p c A cA hp hA =>
      rw [refreshTail_cons]
      have e : (if (decide (c.1 ≠ c.2) = true) then sweep c.1 c.2 cA else .ok cA) = .ok (cA.map (repl c.1 c.2)) := by
        by_cases h : c.1 = c.2
        · rw [if_neg (by simp [h]), map_repl_self h]
        · rw [if_pos (by simp [h])]
          exact sweep_ok (Or.inl (fun e => h e.symm))
      rw [e]
      simp only [Res.ok_bind]
      have hstep : Rel2 (NowOr (E ++ [p]) (D ++ [c])) A (cA.map (repl c.1 c.2)) := by
        refine Rel2.map2 hA fun q d hdm hq => ⟨hq.1, ?_, ?_⟩
        · have sub : ∀ x ∈ E, x ∈ E ++ [p] := fun x hx => List.mem_append_left _ hx
          simp only [repl]
          split
          · rename_i e
            refine (hq.2.1.mono sub).trans (.step (s := p.2) ?_ (hp.2.1.mono sub))
            rw [e, hp.1]
            simp
          · exact hq.2.1.mono sub
        · simp only [repl, List.map_append, List.map_cons, List.map_nil, List.mem_append, List.mem_singleton, not_or]
          split
          · rename_i e
            by_cases h : c.1 = c.2
            · right; right; rw [← h]; exact Prod.ext rfl h
            · rcases hp.2.2 with h2 | h2
              · exact Or.inl ⟨h2, fun e2 => h (by rw [hp.1, e2])⟩
              · exact Or.inr (Or.inl h2)
          · rename_i e
            rcases hq.2.2 with h2 | h2
            · exact Or.inl ⟨h2, fun e2 => e (by rw [hp.1, e2])⟩
            · exact Or.inr (Or.inl h2)
      obtain ⟨R, e2, hR, h⟩ := ih A _ (E ++ [p]) (D ++ [c]) (by simpa using hl) hstep
      refine ⟨c :: R, by rw [e2]; rfl, by simp [hR], ?_⟩
      intro i q d hq hd
      cases i with
      | zero =>
        simp only [List.getElem?_cons_zero, Option.some.injEq] at hq hd
        subst hq hd
        simpa using hp
      | succ i =>
        simp only [List.getElem?_cons_succ] at hq hd
        simpa using h i q d hq hd

private theorem rel_self (L : List (Int × Int)) : Rel2 (Now []) L L := by
  induction L with
  | nil => exact .nil
  | cons p L ih => exact .cons ⟨rfl, .here _, by simp⟩ ih

private theorem clashFrom_start (B A : List (Int × Int)) : ClashFrom [] B A ↔ Clash B A := Iff.rfl

/-! ### C107 -/

/-- C107, one-list overload: for requests at different positions the computation of the swap order runs forever exactly
when the requests clash; otherwise it returns, and the entry for each request names the place its block has been moved to
by the requests before it. -/
theorem C107_order_one (L : List (Int × Int)) (hp : (L.map Prod.fst).Nodup) :
    (refreshSwapOrder1 L = .diverge ↔ Clash L []) ∧
    (¬ Clash L [] → ∃ out, refreshSwapOrder1 L = .ok out ∧ out.length = L.length ∧
      ∀ (i : Nat) (q c : Int × Int), L[i]? = some q → out[i]? = some c →
        c.1 = q.1 ∧ Leads (L.take i) q.2 c.2 ∧ c.2 ∉ (L.take i).map Prod.fst) := by
  have h := phaseB _ L [] L [] [] rfl (by simpa using hp) (rel_self L) .nil
  unfold refreshSwapOrder1
  rw [tail_eq_refreshB _ L rfl]
  rcases h with ⟨e, h⟩ | ⟨h, B', A', e, h1, -⟩
  · rw [e]
    exact ⟨⟨fun _ => h, fun _ => rfl⟩, fun hn => absurd h hn⟩
  · rw [e]
    refine ⟨⟨fun h' => (by cases h'), fun h' => absurd h' h⟩, fun _ => ⟨B', rfl, h1.1, ?_⟩⟩
    intro i q c hq hc
    have := h1.2 i q c hq hc
    rw [List.nil_append] at this
    exact this

/-- C107, two-list overload: it runs forever exactly when a request of the first list clashes with a later one; otherwise it
returns, and the entry for each request names the place its block has been moved to by the requests before it (for the
second list, possibly a place already settled: the place of an earlier entry `(c, c)`). -/
theorem C107_order (B A : List (Int × Int)) (hp : (B.map Prod.fst).Nodup) :
    (refreshSwapOrder2 B A = .diverge ↔ Clash B A) ∧
    (¬ Clash B A → ∃ outB outA, refreshSwapOrder2 B A = .ok (outB, outA) ∧ outB.length = B.length ∧ outA.length = A.length ∧
      (∀ (i : Nat) (q c : Int × Int), B[i]? = some q → outB[i]? = some c →
        c.1 = q.1 ∧ Leads (B.take i) q.2 c.2 ∧ c.2 ∉ (B.take i).map Prod.fst) ∧
      (∀ (i : Nat) (q c : Int × Int), A[i]? = some q → outA[i]? = some c →
        c.1 = q.1 ∧ Leads (B ++ A.take i) q.2 c.2 ∧
          (c.2 ∉ (B ++ A.take i).map Prod.fst ∨ (c.2, c.2) ∈ outA.take i))) := by
  have h := phaseB _ B A B A [] rfl (by simpa using hp) (rel_self B) (rel_self A)
  unfold refreshSwapOrder2
  rcases h with ⟨e, h⟩ | ⟨h, B', A', e, h1, h2⟩
  · rw [e]
    exact ⟨⟨fun _ => h, fun _ => rfl⟩, fun hn => absurd h hn⟩
  · rw [e]
    rw [List.nil_append] at h2
    have h3 : Rel2 (NowOr B []) A A' := by
      have := Rel2.map2 (R' := NowOr B []) (g := id) h2 fun q c _ hr => ⟨hr.1, hr.2.1, Or.inl hr.2.2⟩
      simpa using this
    obtain ⟨R, e2, hR, h4⟩ := phaseA _ A A' B [] rfl h3
    simp only [Res.ok_bind, e2]
    refine ⟨⟨fun h' => (by cases h'), fun h' => absurd h' h⟩, fun _ => ⟨B', R, rfl, h1.1, hR, ?_, ?_⟩⟩
    · intro i q c hq hc
      have := h1.2 i q c hq hc
      rw [List.nil_append] at this
      exact this
    · intro i q c hq hc
      have := h4 i q c hq hc
      rw [List.nil_append] at this
      exact this

/-! ### executing the order -/

theorem requests_eq (k : Int) (ms : List Int) : requests k ms = pairUp k ms := by
  apply List.ext_getElem?
  intro i
  rw [pairUp_getElem?]
  unfold requests
  rw [List.getElem?_map, List.getElem?_zipIdx]
  cases ms[i]? with
  | none => rfl
  | some t => simp

private theorem update_ok {β : Type} : ∀ (L : List (Int × Int)) (x : List β),
    (∀ p ∈ L, (1 ≤ p.1 ∧ p.1 ≤ x.length) ∧ (1 ≤ p.2 ∧ p.2 ≤ x.length)) →
    ∃ y, updateSwapLists1 L x = .ok y ∧ y.length = x.length ∧ y.Perm x
  | [], x, _ => ⟨x, rfl, rfl, List.Perm.refl _⟩
  | p :: L, x, h => by
    obtain ⟨y, e, hl, hp, -⟩ := swapEntry_ok (h p (by simp)).1 (h p (by simp)).2
    obtain ⟨z, e2, hl2, hp2⟩ := update_ok L y (fun q hq => by rw [hl]; exact h q (by simp [hq]))
    refine ⟨z, ?_, by omega, hp2.trans hp⟩
    unfold updateSwapLists1 at e2 ⊢
    rw [List.foldlM_cons, e]
    exact e2

private theorem update_atoms {n : Nat} {L : List (Int × Int)}
    (h : ∀ p ∈ L, (1 ≤ p.1 ∧ p.1 ≤ n) ∧ (1 ≤ p.2 ∧ p.2 ≤ n)) :
    ∃ y, y.Perm (irange 1 n) ∧ ∀ {β : Type} {R : β → Int → Prop} {l : List β}, Rel2 R l (irange 1 n) →
        ∃ l', updateSwapLists1 L l = .ok l' ∧ Rel2 R l' y := by
  have hn : (irange 1 n).length = n := by simp
  obtain ⟨y, e2, hyl, hyp⟩ := update_ok L (irange 1 n) (by rw [hn]; exact h)
  refine ⟨y, hyp, ?_⟩
  intro β R l hl
  have hlen := hl.length_eq
  have hz : (l.zip (irange 1 n)).length = n := by simp at hlen ⊢; omega
  obtain ⟨z, e4, hzl, hzp⟩ := update_ok L (l.zip (irange 1 n)) (by rw [hz]; exact h)
  have hs : (l.zip (irange 1 n)).map Prod.snd = irange 1 n := List.map_snd_zip (by omega)
  have hzy : z.map Prod.snd = y := by
    have := updateSwapLists1_map Prod.snd L (l.zip (irange 1 n))
    rw [hs, e4, e2] at this
    simpa using this.symm
  refine ⟨z.map Prod.fst, ?_, ?_⟩
  · have := updateSwapLists1_map Prod.fst L (l.zip (irange 1 n))
    rw [zip_map_fst _ _ hlen, e4] at this
    exact this
  · rw [← hzy]
    exact rel2_of_pairs (fun p hp => hl.mem_zip p (hzp.mem_iff.1 hp))

private theorem Leads.target {E : List (Int × Int)} {a b : Int} (h : Leads E a b) : b = a ∨ ∃ p ∈ E, p.2 = b := by
  induction h with
  | here => exact Or.inl rfl
  | step hm _ ih =>
    rcases ih with e | h
    · exact Or.inr ⟨_, hm, e.symm⟩
    · exact Or.inr h

private theorem Leads.stuck {E : List (Int × Int)} {a b : Int} (h : Leads E a b) (ha : a ∉ E.map Prod.fst) : b = a := by
  cases h with
  | here => rfl
  | step hm _ => exact absurd (List.mem_map.2 ⟨_, hm, rfl⟩) ha

/-- What the one-monomer functions do with a schedule that exchanges existing blocks. -/
private theorem coef1_of [Zero α] {basis A : List Int} (hb : ∀ b ∈ basis, 1 ≤ b) (hne : basis ≠ []) {A' : List (Int × Int)} {y : List Int}
    (e1 : refreshSwapOrder1 (pairUp 0 A) = .ok A') (hy : y.Perm (irange 1 basis.length))
    (hex : ∀ {β : Type} {R : β → Int → Prop} {l : List β}, Rel2 R l (irange 1 basis.length) →
      ∃ l', updateSwapLists1 A' l = .ok l' ∧ Rel2 R l' y) :
      (∀ (m : Mat α) (r : Int) (f : Int → Int → α), 1 ≤ r → ColsAre m r f (irange 1 basis.sum) →
        ∃ m', unscrambleCoef1 A basis m = .ok m' ∧ ColsAre m' r f (colsOf basis y)) ∧
      (∀ (m : Mat α) (c : Int) (f : Int → Int → α), 1 ≤ c → RowsAre m c f (irange 1 basis.sum) →
        ∃ m', unscrambleRows1 A basis m = .ok m' ∧ RowsAre m' c f (colsOf basis y)) := by
  have hs := sum_pos hb hne
  refine ⟨?_, ?_⟩
  · intro m r f hr hm
    obtain ⟨l, e2, hl⟩ := splitAtoms_cols hr hb hm
    obtain ⟨l', e3, hl'⟩ := hex hl
    obtain ⟨m', e4, hm'⟩ := mergeAtoms_cols hr hb hne hy hl'
    refine ⟨m', ?_, hm'⟩
    unfold unscrambleCoef1
    rw [e2]
    have hmc := hm.cols
    rw [irange_length_of_nonneg (by omega)] at hmc
    simp only [Res.ok_bind, e1, e3, hm.rows, hmc, e4]
  · intro m c f hc hm
    obtain ⟨l, e2, hl⟩ := splitAtoms_rows hc hb hm
    obtain ⟨l', e3, hl'⟩ := hex hl
    obtain ⟨m', e4, hm'⟩ := mergeAtoms_rows hc hb hne hy hl'
    refine ⟨m', ?_, hm'⟩
    unfold unscrambleRows1
    rw [e2]
    have hmc := hm.rows
    rw [irange_length_of_nonneg (by omega)] at hmc
    simp only [Res.ok_bind, e1, e3, hm.cols, hmc, e4]

/-- The same for the two-monomer functions. -/
private theorem coef2_of [Zero α] {basis A B : List Int} (hb : ∀ b ∈ basis, 1 ≤ b) (hne : basis ≠ []) {B' A' : List (Int × Int)}
    {y : List Int} (e1 : refreshSwapOrder2 (pairUp A.length B) (pairUp 0 A) = .ok (B', A')) (hy : y.Perm (irange 1 basis.length))
    (hex : ∀ {β : Type} {R : β → Int → Prop} {l : List β}, Rel2 R l (irange 1 basis.length) →
      ∃ l', updateSwapLists1 (B' ++ A') l = .ok l' ∧ Rel2 R l' y) :
      (∀ (m : Mat α) (r : Int) (f : Int → Int → α), 1 ≤ r → ColsAre m r f (irange 1 basis.sum) →
        ∃ m', unscrambleCoef2 A B basis m = .ok m' ∧ ColsAre m' r f (colsOf basis y)) ∧
      (∀ (m : Mat α) (c : Int) (f : Int → Int → α), 1 ≤ c → RowsAre m c f (irange 1 basis.sum) →
        ∃ m', unscrambleRows2 A B basis m = .ok m' ∧ RowsAre m' c f (colsOf basis y)) := by
  have hs := sum_pos hb hne
  refine ⟨?_, ?_⟩
  · intro m r f hr hm
    obtain ⟨l, e2, hl⟩ := splitAtoms_cols hr hb hm
    obtain ⟨l', e3, hl'⟩ := hex hl
    obtain ⟨m', e4, hm'⟩ := mergeAtoms_cols hr hb hne hy hl'
    refine ⟨m', ?_, hm'⟩
    unfold unscrambleCoef2
    rw [e2]
    have hmc := hm.cols
    rw [irange_length_of_nonneg (by omega)] at hmc
    simp only [Res.ok_bind, pairUp_length, e1, updateSwapLists_append, e3, hm.rows, hmc, e4]
  · intro m c f hc hm
    obtain ⟨l, e2, hl⟩ := splitAtoms_rows hc hb hm
    obtain ⟨l', e3, hl'⟩ := hex hl
    obtain ⟨m', e4, hm'⟩ := mergeAtoms_rows hc hb hne hy hl'
    refine ⟨m', ?_, hm'⟩
    unfold unscrambleRows2
    rw [e2]
    have hmc := hm.rows
    rw [irange_length_of_nonneg (by omega)] at hmc
    simp only [Res.ok_bind, pairUp_length, e1, updateSwapLists_append, e3, hm.cols, hmc, e4]

/-- The blocks of `coef`'s columns, in the order `y`. -/
def ColumnsIn (basis y : List Int) (coef m' : Mat α) : Prop :=
  WF m' ∧ m'.rows = coef.rows ∧ m'.cols = coef.cols ∧ m'.shel = 1 ∧
    ∀ i (q : Nat) c, (colsOf basis y)[q]? = some c → m'.getElem2 i (q + 1) = coef.getElem2 i c

/-- The blocks of `S`, rows and columns, in the order `y`. -/
def BothIn (basis y : List Int) (S S' : Mat α) : Prop :=
  WF S' ∧ S'.rows = S.rows ∧ S'.cols = S.cols ∧ S'.shel = 1 ∧
    ∀ (p q : Nat) r c, (colsOf basis y)[p]? = some r → (colsOf basis y)[q]? = some c →
      S'.getElem2 (p + 1) (q + 1) = S.getElem2 r c

private theorem read_off [Zero α] {basis y : List Int} (hb : ∀ b ∈ basis, 1 ≤ b) (hne : basis ≠ []) (hy : y.Perm (irange 1 basis.length))
    {U V W : Mat α → Res (Mat α)} (hV : ∀ S, V S = (U S >>= W))
    (hC : ∀ (m : Mat α) (r : Int) (f : Int → Int → α), 1 ≤ r → ColsAre m r f (irange 1 basis.sum) →
        ∃ m', U m = .ok m' ∧ ColsAre m' r f (colsOf basis y))
    (hR : ∀ (m : Mat α) (c : Int) (f : Int → Int → α), 1 ≤ c → RowsAre m c f (irange 1 basis.sum) →
        ∃ m', W m = .ok m' ∧ RowsAre m' c f (colsOf basis y)) :
    (∀ coef : Mat α, WF coef → coef.shel = 1 → coef.cols = basis.sum → ∃ m', U coef = .ok m' ∧ ColumnsIn basis y coef m') ∧
    (∀ S : Mat α, WF S → S.shel = 1 → S.cols = basis.sum → S.rows = basis.sum → ∃ S', V S = .ok S' ∧ BothIn basis y S S') := by
  have hperm := colsOf_perm hb hy
  have hsum := sum_pos hb hne
  have hlen : ((colsOf basis y).length : Int) = basis.sum := by
    rw [hperm.length_eq]; exact irange_length_of_nonneg (by omega)
  have hmem : ∀ x ∈ colsOf basis y, 1 ≤ x ∧ x ≤ basis.sum := fun x hx => mem_irange.1 (hperm.mem_iff.1 hx)
  refine ⟨?_, ?_⟩
  · intro coef hw hs hc
    obtain ⟨f, hf⟩ := hw.exists_isMat
    rw [hs, hc] at hf
    obtain ⟨m', e, hm'⟩ := hC coef coef.rows _ hw.rows1 (isMat_colsAre hf (by omega))
    refine ⟨m', e, ?_, hm'.rows, by rw [hm'.cols, hlen, hc], hm'.shel, ?_⟩
    · exact IsMat.wf hm' hw.rows1 (by omega) (by omega)
    · intro i q c hq
      exact cols_read hf hlen hmem hm' i q c hq
  · intro S hw hs hc hr
    obtain ⟨f, hf⟩ := hw.exists_isMat
    rw [hs, hc, hr] at hf
    obtain ⟨S1, e, h1⟩ := hC S basis.sum _ hsum (isMat_colsAre hf (by omega))
    obtain ⟨S2, e2, h2⟩ := hR S1 basis.sum _ hsum (both_sides hsum hlen h1)
    have h2' := h2
    unfold RowsAre at h2'
    rw [hlen] at h2'
    refine ⟨S2, by rw [hV, e]; exact e2, h2'.wf hsum hsum (by omega), by rw [h2'.rows, hr], by rw [h2'.cols, hc],
      h2'.shel, ?_⟩
    intro p q r c hp hq
    have hp1 := (List.getElem?_eq_some_iff.1 hp).1
    have hq1 := (List.getElem?_eq_some_iff.1 hq).1
    have hr1 := hmem r (List.mem_of_getElem? hp)
    have hc1 := hmem c (List.mem_of_getElem? hq)
    rw [h2'.get2 (by omega) (by omega) (by omega) (by omega) (by omega),
      hf.get2 (by omega) hr1.1 hr1.2 hc1.1 hc1.2]
    have ep : ((p : Int) + 1 - 1).toNat = p := by omega
    have eq : ((q : Int) + 1 - 1).toNat = q := by omega
    simp only [List.getD_eq_getElem?_getD, ep, eq, hp, hq, Option.getD_some]

private theorem split_ok [Zero α] {m : Mat α} (h : WF m) (hs : m.shel = 1) {basis : List Int} (hb : ∀ b ∈ basis, 1 ≤ b)
    (hsum : m.cols = basis.sum) : ∃ l, splitMatrixIntoList basis m "Columns".toList = .ok l ∧ l.length = basis.length := by
  obtain ⟨f, hf⟩ := h.exists_isMat
  rw [hs] at hf
  have hc := h.cols1
  have hm : ColsAre m m.rows (fun i j => f i j 1) (irange 1 basis.sum) := by rw [← hsum]; exact isMat_colsAre hf (by omega)
  obtain ⟨l, e2, hl⟩ := splitAtoms_cols h.rows1 hb hm
  exact ⟨l, e2, by rw [hl.length_eq]; simp⟩

private theorem entry_of {L out : List (Int × Int)} (hl : out.length = L.length) {c : Int × Int} (hc : c ∈ out) :
    ∃ (i : Nat) (q : Int × Int), L[i]? = some q ∧ out[i]? = some c := by
  obtain ⟨i, hi⟩ := List.mem_iff_getElem?.1 hc
  have := (List.getElem?_eq_some_iff.1 hi).1
  exact ⟨i, L[i], List.getElem?_eq_getElem (by omega), hi⟩

private theorem entry_of' {L out : List (Int × Int)} (hl : out.length = L.length) {q : Int × Int} (hc : q ∈ L) :
    ∃ (i : Nat) (c : Int × Int), L[i]? = some q ∧ out[i]? = some c := by
  obtain ⟨i, hi⟩ := List.mem_iff_getElem?.1 hc
  have := (List.getElem?_eq_some_iff.1 hi).1
  exact ⟨i, out[i], hi, List.getElem?_eq_getElem (by omega)⟩

private theorem pairUp_range {k : Int} {M : List Int} {q : Int × Int} (h : q ∈ pairUp k M) :
    k + 1 ≤ q.1 ∧ q.1 ≤ k + M.length ∧ q.2 ∈ M := by
  obtain ⟨i, h1, h2⟩ := mem_pairUp.1 h
  have := (List.getElem?_eq_some_iff.1 h1).1
  exact ⟨by omega, by omega, List.mem_of_getElem? h1⟩

private theorem mem_snd {k : Int} {M : List Int} {t : Int} (h : t ∈ M) : ∃ q ∈ pairUp k M, q.2 = t := by
  obtain ⟨i, hi⟩ := List.mem_iff_getElem?.1 h
  exact ⟨(k + 1 + i, t), mem_pairUp.2 ⟨i, hi, rfl⟩, rfl⟩

/-- C107, one-monomer functions: for a list of matches not longer than the dimer there are exactly three outcomes.
* The requests clash: `unscramble_Coef` and `unscramble_S` never return.
* They do not, and some match names no atom: undefined behaviour (an access outside the list of blocks).
* They do not, and all matches name atoms: both return, and the result is one rearrangement of the blocks of the atoms:
  none lost, none repeated (even when two matches name the same atom). -/
theorem C107_unscramble_one [Zero α] (A basis : List Int) (hb : ∀ b ∈ basis, 1 ≤ b) (hne : basis ≠ [])
    (hlen : A.length ≤ basis.length) :
    (Clash (requests 0 A) [] → ∀ m : Mat α, WF m → m.shel = 1 → m.cols = basis.sum →
      unscrambleCoef1 A basis m = .diverge ∧ unscrambleS1 A basis m = .diverge) ∧
    (¬ Clash (requests 0 A) [] → (∃ t ∈ A, t < 1 ∨ t > basis.length) → ∀ m : Mat α, WF m → m.shel = 1 → m.cols = basis.sum →
      unscrambleCoef1 A basis m = .ub ∧ unscrambleS1 A basis m = .ub) ∧
    (¬ Clash (requests 0 A) [] → (∀ t ∈ A, 1 ≤ t ∧ t ≤ basis.length) →
      ∃ y, y.Perm (irange 1 basis.length) ∧ (colsOf basis y).Perm (irange 1 basis.sum) ∧
        (∀ coef : Mat α, WF coef → coef.shel = 1 → coef.cols = basis.sum →
          ∃ m', unscrambleCoef1 A basis coef = .ok m' ∧ ColumnsIn basis y coef m') ∧
        (∀ S : Mat α, WF S → S.shel = 1 → S.cols = basis.sum → S.rows = basis.sum →
          ∃ S', unscrambleS1 A basis S = .ok S' ∧ BothIn basis y S S')) := by
  rw [requests_eq]
  obtain ⟨hdiv, hok⟩ := C107_order_one (pairUp 0 A) (pairUp_fst_nodup 0 A)
  refine ⟨?_, ?_, ?_⟩
  · intro hcl m hw hs hc
    obtain ⟨l, e, -⟩ := split_ok hw hs hb hc
    have main : unscrambleCoef1 A basis m = .diverge := by
      unfold unscrambleCoef1
      rw [e]
      simp only [Res.ok_bind]
      rw [hdiv.2 hcl]; rfl
    exact ⟨main, by rw [unscrambleS1_eq, main]; rfl⟩
  · intro hcl hbad m hw hs hc
    obtain ⟨l, e, hl⟩ := split_ok hw hs hb hc
    obtain ⟨out, e1, hlo, hout⟩ := hok hcl
    have main : unscrambleCoef1 A basis m = .ub := by
      unfold unscrambleCoef1
      rw [e]
      simp only [Res.ok_bind]
      rw [e1]
      simp only [Res.ok_bind]
      obtain ⟨t, ht, htb⟩ := hbad
      obtain ⟨q, hq, rfl⟩ := mem_snd (k := 0) ht
      obtain ⟨i, c, h1, h2⟩ := entry_of' hlo hq
      obtain ⟨c1, c2, c3⟩ := hout i q c h1 h2
      have hst : c.2 = q.2 := by
        apply c2.stuck
        intro hm
        obtain ⟨r, hr, hr2⟩ := List.mem_map.1 hm
        have := pairUp_range (List.mem_of_mem_take hr)
        omega
      have hqr := pairUp_range hq
      rw [update_bad out l c (List.mem_of_getElem? h2) (by rw [c1, hst]; omega) (by rw [hst, hl]; exact htb)]
      rfl
    exact ⟨main, by rw [unscrambleS1_eq, main]; rfl⟩
  · intro hcl hin
    obtain ⟨out, e1, hlo, hout⟩ := hok hcl
    have hrange : ∀ p ∈ out, (1 ≤ p.1 ∧ p.1 ≤ basis.length) ∧ (1 ≤ p.2 ∧ p.2 ≤ basis.length) := by
      intro c hc
      obtain ⟨i, q, h1, h2⟩ := entry_of hlo hc
      obtain ⟨c1, c2, c3⟩ := hout i q c h1 h2
      have hq := pairUp_range (List.mem_of_getElem? h1)
      refine ⟨by omega, ?_⟩
      rcases c2.target with e | ⟨r, hr, hr2⟩
      · rw [e]; exact hin _ hq.2.2
      · rw [← hr2]; exact hin _ (pairUp_range (List.mem_of_mem_take hr)).2.2
    obtain ⟨y, hy, hex⟩ := update_atoms hrange
    obtain ⟨hC, hR⟩ := coef1_of (α := α) hb hne e1 hy hex
    obtain ⟨r1, r2⟩ := read_off hb hne hy (unscrambleS1_eq A basis) hC hR
    exact ⟨y, hy, colsOf_perm hb hy, r1, r2⟩

/-- C107, two-monomer functions: the same three outcomes; the requests of monomer 2 are served first. -/
theorem C107_unscramble [Zero α] (A B basis : List Int) (hb : ∀ b ∈ basis, 1 ≤ b) (hne : basis ≠ [])
    (hlen : A.length + B.length ≤ basis.length) :
    (Clash (requests A.length B) (requests 0 A) → ∀ m : Mat α, WF m → m.shel = 1 → m.cols = basis.sum →
      unscrambleCoef2 A B basis m = .diverge ∧ unscrambleS2 A B basis m = .diverge) ∧
    (¬ Clash (requests A.length B) (requests 0 A) → (∃ t ∈ A ++ B, t < 1 ∨ t > basis.length) →
      ∀ m : Mat α, WF m → m.shel = 1 → m.cols = basis.sum →
      unscrambleCoef2 A B basis m = .ub ∧ unscrambleS2 A B basis m = .ub) ∧
    (¬ Clash (requests A.length B) (requests 0 A) → (∀ t ∈ A ++ B, 1 ≤ t ∧ t ≤ basis.length) →
      ∃ y, y.Perm (irange 1 basis.length) ∧ (colsOf basis y).Perm (irange 1 basis.sum) ∧
        (∀ coef : Mat α, WF coef → coef.shel = 1 → coef.cols = basis.sum →
          ∃ m', unscrambleCoef2 A B basis coef = .ok m' ∧ ColumnsIn basis y coef m') ∧
        (∀ S : Mat α, WF S → S.shel = 1 → S.cols = basis.sum → S.rows = basis.sum →
          ∃ S', unscrambleS2 A B basis S = .ok S' ∧ BothIn basis y S S')) := by
  rw [requests_eq, requests_eq]
  obtain ⟨hdiv, hok⟩ := C107_order (pairUp A.length B) (pairUp 0 A) (pairUp_fst_nodup _ B)
  refine ⟨?_, ?_, ?_⟩
  · intro hcl m hw hs hc
    obtain ⟨l, e, -⟩ := split_ok hw hs hb hc
    have main : unscrambleCoef2 A B basis m = .diverge := by
      unfold unscrambleCoef2
      rw [e]
      simp only [Res.ok_bind, pairUp_length]
      rw [hdiv.2 hcl]; rfl
    exact ⟨main, by rw [unscrambleS2_eq, main]; rfl⟩
  · intro hcl hbad m hw hs hc
    obtain ⟨l, e, hl⟩ := split_ok hw hs hb hc
    obtain ⟨outB, outA, e1, hlB, hlA, hoB, hoA⟩ := hok hcl
    have main : unscrambleCoef2 A B basis m = .ub := by
      unfold unscrambleCoef2
      rw [e]
      simp only [Res.ok_bind, pairUp_length]
      rw [e1]
      simp only [Res.ok_bind]
      rw [updateSwapLists_append]
      obtain ⟨t, ht, htb⟩ := hbad
      have fin : ∀ c ∈ outB ++ outA, c.2 = t → 1 ≤ c.1 → c.1 ≤ basis.length →
          (updateSwapLists1 (outB ++ outA) l >>= fun l => mergeListOfMatrices l m.rows m.cols "Columns".toList) = .ub := by
        intro c hc h1 h2 h3
        rw [update_bad _ l c hc (by rw [h1]; omega) (by rw [h1, hl]; exact htb)]
        rfl
      rcases List.mem_append.1 ht with ht | ht
      · obtain ⟨q, hq, rfl⟩ := mem_snd (k := 0) ht
        obtain ⟨i, c, h1, h2⟩ := entry_of' hlA hq
        obtain ⟨c1, c2, c3⟩ := hoA i q c h1 h2
        have hst : c.2 = q.2 := by
          apply c2.stuck
          intro hm
          obtain ⟨r, hr, hr2⟩ := List.mem_map.1 hm
          rcases List.mem_append.1 hr with hr | hr
          · have := pairUp_range hr
            omega
          · have := pairUp_range (List.mem_of_mem_take hr)
            omega
        have hqr := pairUp_range hq
        exact fin c (List.mem_append_right _ (List.mem_of_getElem? h2)) hst (by omega) (by omega)
      · obtain ⟨q, hq, rfl⟩ := mem_snd (k := A.length) ht
        obtain ⟨i, c, h1, h2⟩ := entry_of' hlB hq
        obtain ⟨c1, c2, c3⟩ := hoB i q c h1 h2
        have hst : c.2 = q.2 := by
          apply c2.stuck
          intro hm
          obtain ⟨r, hr, hr2⟩ := List.mem_map.1 hm
          have := pairUp_range (List.mem_of_mem_take hr)
          omega
        have hqr := pairUp_range hq
        exact fin c (List.mem_append_left _ (List.mem_of_getElem? h2)) hst (by omega) (by omega)
    exact ⟨main, by rw [unscrambleS2_eq, main]; rfl⟩
  · intro hcl hin
    obtain ⟨outB, outA, e1, hlB, hlA, hoB, hoA⟩ := hok hcl
    have hinA : ∀ q ∈ pairUp 0 A, 1 ≤ q.2 ∧ q.2 ≤ basis.length := fun q hq =>
      hin _ (List.mem_append_left _ (pairUp_range hq).2.2)
    have hinB : ∀ q ∈ pairUp A.length B, 1 ≤ q.2 ∧ q.2 ≤ basis.length := fun q hq =>
      hin _ (List.mem_append_right _ (pairUp_range hq).2.2)
    have hrange : ∀ p ∈ outB ++ outA, (1 ≤ p.1 ∧ p.1 ≤ basis.length) ∧ (1 ≤ p.2 ∧ p.2 ≤ basis.length) := by
      intro c hc
      rcases List.mem_append.1 hc with hc | hc
      · obtain ⟨i, q, h1, h2⟩ := entry_of hlB hc
        obtain ⟨c1, c2, c3⟩ := hoB i q c h1 h2
        have hqm := List.mem_of_getElem? h1
        have hq := pairUp_range hqm
        refine ⟨by omega, ?_⟩
        rcases c2.target with e | ⟨r, hr, hr2⟩
        · rw [e]; exact hinB _ hqm
        · rw [← hr2]; exact hinB _ (List.mem_of_mem_take hr)
      · obtain ⟨i, q, h1, h2⟩ := entry_of hlA hc
        obtain ⟨c1, c2, c3⟩ := hoA i q c h1 h2
        have hqm := List.mem_of_getElem? h1
        have hq := pairUp_range hqm
        refine ⟨by omega, ?_⟩
        rcases c2.target with e | ⟨r, hr, hr2⟩
        · rw [e]; exact hinA _ hqm
        · rw [← hr2]
          rcases List.mem_append.1 hr with hr | hr
          · exact hinB _ hr
          · exact hinA _ (List.mem_of_mem_take hr)
    obtain ⟨y, hy, hex⟩ := update_atoms hrange
    obtain ⟨hC, hR⟩ := coef2_of (α := α) hb hne e1 hy hex
    obtain ⟨r1, r2⟩ := read_off hb hne hy (unscrambleS2_eq A B basis) hC hR
    exact ⟨y, hy, colsOf_perm hb hy, r1, r2⟩

example : Clash (requests 0 [2, 1, 1]) [] :=
  ⟨[(1, 2)], (2, 1), [(3, 1)], (3, 1), rfl, by simp, .step (s := 2) (by simp) (.here 2), .step (s := 2) (by simp) (.here 2)⟩
example : unscrambleCoef1 [2, 1, 1] [1, 1, 1] ex23 = .diverge := by decide
/-- Two matches naming the same atom need not clash; the result is then a rearrangement, but not the one asked for. -/
example : refreshSwapOrder1 (requests 0 [3, 3]) = .ok [(1, 3), (2, 3)] := by decide
example : ¬ Clash (requests 0 [3, 3]) [] := by
  intro h
  have := (C107_order_one (requests 0 [3, 3]) (by decide)).1.2 h
  revert this
  decide

end Verif.QC
