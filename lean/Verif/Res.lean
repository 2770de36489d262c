/-
Outcome of running a piece of the C++ program, and the loops built on it.
-/
namespace Verif

/-- The standard exception classes thrown by the modelled code (messages are dropped). -/
inductive Exn
  | invalidArgument
  | outOfRange
  | runtimeError
deriving DecidableEq, Repr

/-- Outcome of a computation.
`exit` is `std::exit(code)`, `ub` undefined behaviour, `diverge` an endless loop. -/
inductive Res (α : Type u) : Type u
  | ok (a : α)
  | throw (e : Exn)
  | exit (code : Int)
  | ub
  | diverge
deriving DecidableEq, Repr

namespace Res

@[inline] def bind {α : Type u} {β : Type v} (x : Res α) (f : α → Res β) : Res β :=
  match x with
  | ok a => f a
  | throw e => throw e
  | exit c => exit c
  | ub => ub
  | diverge => diverge

instance : Monad Res where
  pure := ok
  bind := bind

@[simp] theorem pure_def {α : Type u} (a : α) : (pure a : Res α) = ok a := rfl
@[simp] theorem ok_bind {α β : Type u} (a : α) (f : α → Res β) : (ok a >>= f) = f a := rfl
@[simp] theorem throw_bind {α β : Type u} (e : Exn) (f : α → Res β) : (throw e >>= f) = throw e := rfl
@[simp] theorem exit_bind {α β : Type u} (c : Int) (f : α → Res β) : (exit c >>= f) = exit c := rfl
@[simp] theorem ub_bind {α β : Type u} (f : α → Res β) : ((ub : Res α) >>= f) = ub := rfl
@[simp] theorem diverge_bind {α β : Type u} (f : α → Res β) : ((diverge : Res α) >>= f) = diverge := rfl

instance : LawfulMonad Res := LawfulMonad.mk'
  (id_map := fun x => by cases x <;> rfl)
  (pure_bind := fun _ _ => rfl)
  (bind_assoc := fun x _ _ => by cases x <;> rfl)

@[simp] theorem map_ok {α β : Type u} (a : α) (f : α → β) : (f <$> (ok a : Res α)) = ok (f a) := rfl

theorem bind_eq_ok {α β : Type u} {x : Res α} {f : α → Res β} {b : β} :
    (x >>= f) = ok b ↔ ∃ a, x = ok a ∧ f a = ok b := by
  cases x <;> simp

@[simp] theorem bind_ok {α : Type u} (x : Res α) : (x >>= fun a => ok a) = x := by cases x <;> rfl

/-- The computation completed normally. -/
def isOk {α : Type u} : Res α → Bool
  | ok _ => true
  | _ => false

theorem isOk_iff {α : Type u} {x : Res α} : x.isOk = true ↔ ∃ a, x = ok a := by
  cases x <;> simp [isOk]

end Res

/-- The integers `lo, lo+1, ..., hi` (empty when `hi < lo`): the values a C++ loop
`for (int i = lo; i <= hi; ++i)` takes. -/
def irange (lo hi : Int) : List Int :=
  (List.range (hi + 1 - lo).toNat).map (fun (k : Nat) => lo + (k : Int))

@[simp] theorem mem_irange {lo hi x : Int} : x ∈ irange lo hi ↔ lo ≤ x ∧ x ≤ hi := by
  simp only [irange, List.mem_map, List.mem_range]
  constructor
  · rintro ⟨k, hk, rfl⟩; omega
  · rintro ⟨h1, h2⟩; exact ⟨(x - lo).toNat, by omega, by omega⟩

@[simp] theorem length_irange (lo hi : Int) : (irange lo hi).length = (hi + 1 - lo).toNat := by
  simp [irange]

theorem getElem_irange {lo hi : Int} {n : Nat} (h : n < (irange lo hi).length) :
    (irange lo hi)[n] = lo + n := by
  simp [irange]

theorem irange_empty {lo hi : Int} (h : hi < lo) : irange lo hi = [] := by
  have : (hi + 1 - lo).toNat = 0 := by omega
  simp [irange, this]

theorem irange_succ {lo hi : Int} (h : lo ≤ hi + 1) :
    irange lo (hi + 1) = irange lo hi ++ [hi + 1] := by
  have : (hi + 1 + 1 - lo).toNat = (hi + 1 - lo).toNat + 1 := by omega
  simp only [irange, this, List.range_succ, List.map_append, List.map_cons, List.map_nil]
  congr 2; omega

theorem irange_cons {lo hi : Int} (h : lo ≤ hi) :
    irange lo hi = lo :: irange (lo + 1) hi := by
  have : (hi + 1 - lo).toNat = (hi + 1 - (lo + 1)).toNat + 1 := by omega
  simp only [irange, this, List.range_succ_eq_map, List.map_cons, List.map_map]
  congr 1
  · simp
  · apply List.map_congr_left; intro a _; simp; omega

theorem nodup_irange (lo hi : Int) : (irange lo hi).Nodup := by
  unfold irange
  refine List.Pairwise.map _ ?_ (List.nodup_range)
  intro a b h; simp only [ne_eq] at *; omega

/-- `for (int i = lo; i <= hi; ++i) s = body(s, i)` -/
def forRange {σ : Type u} (lo hi : Int) (s : σ) (body : σ → Int → Res σ) : Res σ :=
  (irange lo hi).foldlM body s

/-- `for (int i = hi; i >= lo; --i) s = body(s, i)` -/
def forDown {σ : Type u} (hi lo : Int) (s : σ) (body : σ → Int → Res σ) : Res σ :=
  (irange lo hi).reverse.foldlM body s

theorem forRange_empty {σ : Type u} {lo hi : Int} (h : hi < lo) (s : σ) (body) :
    forRange lo hi s body = .ok s := by
  simp [forRange, irange_empty h]

theorem forRange_cons {σ : Type u} {lo hi : Int} (h : lo ≤ hi) (s : σ) (body) :
    forRange lo hi s body = (body s lo >>= fun s' => forRange (lo+1) hi s' body) := by
  simp [forRange, irange_cons h]

theorem forRange_succ {σ : Type u} {lo hi : Int} (h : lo ≤ hi + 1) (s : σ) (body) :
    forRange lo (hi+1) s body = (forRange lo hi s body >>= fun s' => body s' (hi+1)) := by
  simp [forRange, irange_succ h]

/-- Invariant rule for counting loops (total correctness). -/
theorem forRange_inv {σ : Type u} {lo hi : Int} {body : σ → Int → Res σ} (P : Int → σ → Prop)
    (hlh : lo ≤ hi + 1)
    (step : ∀ i s, lo ≤ i → i ≤ hi → P i s → ∃ s', body s i = .ok s' ∧ P (i+1) s')
    {s : σ} (h0 : P lo s) : ∃ s', forRange lo hi s body = .ok s' ∧ P (hi+1) s' := by
  have key : ∀ n : Nat, ∀ lo', lo ≤ lo' → (hi + 1 - lo').toNat = n → lo' ≤ hi + 1 → ∀ s, P lo' s →
      ∃ s', forRange lo' hi s body = .ok s' ∧ P (hi+1) s' := by
    intro n
    induction n with
    | zero =>
      intro lo' h1 h2 h3 s hs
      have : lo' = hi + 1 := by omega
      subst this
      exact ⟨s, forRange_empty (by omega) _ _, hs⟩
    | succ n ih =>
      intro lo' h1 h2 h3 s hs
      obtain ⟨s', hb, hs'⟩ := step lo' s h1 (by omega) hs
      obtain ⟨s'', hb2, hs''⟩ := ih (lo'+1) (by omega) (by omega) (by omega) s' hs'
      refine ⟨s'', ?_, hs''⟩
      rw [forRange_cons (by omega), hb]; exact hb2
  exact key _ lo (Int.le_refl _) rfl hlh s h0

/-- Invariant rule for downward loops. `P i` holds when index `i` has just been processed. -/
theorem forDown_inv {σ : Type u} {lo hi : Int} {body : σ → Int → Res σ} (P : Int → σ → Prop)
    (hlh : lo ≤ hi + 1)
    (step : ∀ i s, lo ≤ i → i ≤ hi → P (i+1) s → ∃ s', body s i = .ok s' ∧ P i s')
    {s : σ} (h0 : P (hi+1) s) : ∃ s', forDown hi lo s body = .ok s' ∧ P lo s' := by
  have key : ∀ n : Nat, ∀ hi', hi' ≤ hi → (hi' + 1 - lo).toNat = n → lo ≤ hi' + 1 → ∀ s, P (hi'+1) s →
      ∃ s', forDown hi' lo s body = .ok s' ∧ P lo s' := by
    intro n
    induction n with
    | zero =>
      intro hi' h1 h2 h3 s hs
      have : lo = hi' + 1 := by omega
      subst this
      refine ⟨s, ?_, hs⟩
      simp [forDown, irange_empty (show hi' < hi' + 1 by omega)]
    | succ n ih =>
      intro hi' h1 h2 h3 s hs
      obtain ⟨s', hb, hs'⟩ := step hi' s (by omega) h1 hs
      have e : hi' - 1 + 1 = hi' := by omega
      obtain ⟨s'', hb2, hs''⟩ := ih (hi'-1) (by omega) (by omega) (by omega) s' (by rw [e]; exact hs')
      refine ⟨s'', ?_, hs''⟩
      have e2 : irange lo hi' = irange lo (hi'-1) ++ [hi'] := by
        have := irange_succ (lo := lo) (hi := hi' - 1) (by omega)
        rwa [e] at this
      unfold forDown at *
      rw [e2]; simp [hb, hb2, -List.foldlM_reverse]
  exact key _ hi (Int.le_refl _) rfl hlh s h0

/-- A loop in which every iteration either keeps the invariant `Q` or fails with the same outcome, and in which some
iteration always fails, fails with that outcome. -/
theorem foldlM_fail {σ ι : Type} {fail : Res σ} (hfail : ∀ f : σ → Res σ, (fail >>= f) = fail)
    (Q : σ → Prop) (body : σ → ι → Res σ) (L : List ι)
    (step : ∀ x ∈ L, ∀ s, Q s → body s x = fail ∨ ∃ s', body s x = .ok s' ∧ Q s')
    (bad : ∃ x ∈ L, ∀ s, Q s → body s x = fail) {s : σ} (h : Q s) : L.foldlM body s = fail := by
  induction L generalizing s with
  | nil => simp at bad
  | cons x L ih =>
    rw [List.foldlM_cons]
    rcases step x (by simp) s h with e | ⟨s', e, hs'⟩
    · rw [e, hfail]
    · rw [e]; simp only [Res.ok_bind]
      refine ih (fun y hy => step y (by simp [hy])) ?_ hs'
      obtain ⟨y, hy, hb⟩ := bad
      rcases List.mem_cons.1 hy with rfl | hy
      · refine absurd (hb s h) ?_
        rw [e]; intro e'; rw [← e'] at hfail
        have := hfail (fun _ => .ub)
        simp at this
      · exact ⟨y, hy, hb⟩

/-- A doubly nested loop is one loop over the pairs. -/
theorem forRange_nest {σ : Type u} (lo hi : Int) (lo2 hi2 : Int) (s : σ)
    (body : σ → Int → Int → Res σ) :
    forRange lo hi s (fun s i => forRange lo2 hi2 s (fun s j => body s i j)) =
      ((irange lo hi).flatMap (fun i => (irange lo2 hi2).map (fun j => (i, j)))).foldlM
        (fun s p => body s p.1 p.2) s := by
  unfold forRange
  generalize irange lo hi = L
  induction L generalizing s with
  | nil => rfl
  | cons a L ih =>
    simp only [List.foldlM_cons, List.flatMap_cons, List.foldlM_append, ih, List.foldlM_map]

end Verif
