import Verif.Heap
import Verif.MatrixLemmas
/-
Member functions that write through `elem` change neither the dimensions nor the size of the buffer.
-/
namespace Verif.Heap
variable {α : Type}

/-- Same dimensions and same number of cells. -/
def Same (m m' : Mat α) : Prop :=
  m'.rows = m.rows ∧ m'.cols = m.cols ∧ m'.shel = m.shel ∧ m'.elem.length = m.elem.length

theorem Same.rfl' (m : Mat α) : Same m m := ⟨rfl, rfl, rfl, rfl⟩
theorem Same.trans {a b c : Mat α} (h : Same a b) (k : Same b c) : Same a c :=
  ⟨k.1.trans h.1, k.2.1.trans h.2.1, k.2.2.1.trans h.2.2.1, k.2.2.2.trans h.2.2.2⟩

theorem write_length {b b' : Buf α} {i : Int} {v : α} (h : b.write i v = .ok b') : b'.length = b.length := by
  unfold Buf.write at h
  split at h
  · cases h; simp
  · cases h

theorem same_write {m m' : Mat α} {i : Int} {v : α} (h : (m.elem.write i v >>= fun b => Res.ok { m with elem := b }) = .ok m') :
    Same m m' := by
  obtain ⟨b, hb, e⟩ := Res.bind_eq_ok.1 h
  cases e
  exact ⟨rfl, rfl, rfl, write_length hb⟩

theorem same_foldlM {β : Type} {f : Mat α → β → Res (Mat α)} (hf : ∀ m b m', f m b = .ok m' → Same m m') (l : List β) {m m' : Mat α}
    (h : l.foldlM f m = .ok m') : Same m m' := by
  induction l generalizing m with
  | nil => cases h; exact Same.rfl' _
  | cons b l ih =>
    rw [List.foldlM_cons] at h
    obtain ⟨m1, h1, h2⟩ := Res.bind_eq_ok.1 h
    exact (hf _ _ _ h1).trans (ih h2)

theorem same_setElem2 {m m' : Mat α} {v : α} {r c : Int} (h : m.setElem2 v r c = .ok m') : Same m m' := by
  unfold Mat.setElem2 at h
  repeat' split at h
  all_goals first | cases h; done | exact same_write h

theorem same_setRow [Zero α] {m m' : Mat α} {v : List α} {r : Int} (h : m.setRow v r = .ok m') : Same m m' := by
  unfold Mat.setRow at h
  split at h
  · cases h
  · refine same_foldlM (fun m b m' h => ?_) _ h
    split at h
    · obtain ⟨x, -, e⟩ := Res.bind_eq_ok.1 h
      exact same_write e
    · exact same_write h

theorem same_setCol [Zero α] {m m' : Mat α} {v : List α} {c : Int} (h : m.setCol v c = .ok m') : Same m m' := by
  unfold Mat.setCol at h
  split at h
  · cases h
  · refine same_foldlM (fun m b m' h => ?_) _ h
    split at h
    · obtain ⟨x, -, e⟩ := Res.bind_eq_ok.1 h
      exact same_write e
    · exact same_write h

theorem InPlace.same [Zero α] {m m' : Mat α} (f : InPlace α) (h : f.run m = .ok m') : Same m m' := by
  cases f with
  | setElem0 v => exact same_write h
  | setElem1 v r =>
    simp only [InPlace.run, Mat.setElem1] at h
    repeat' split at h
    all_goals first | cases h; done | exact same_write h
  | setElem2 v r c => exact same_setElem2 h
  | setElem3 v r c s =>
    simp only [InPlace.run, Mat.setElem3] at h
    repeat' split at h
    all_goals first | cases h; done | exact same_write h
  | setRow v r => exact same_setRow h
  | setCol v r => exact same_setCol h
  | swapRow a b =>
    simp only [InPlace.run, Mat.swapRow] at h
    split at h
    · cases h; exact Same.rfl' _
    · obtain ⟨x, -, h⟩ := Res.bind_eq_ok.1 h
      obtain ⟨y, -, h⟩ := Res.bind_eq_ok.1 h
      obtain ⟨m1, h1, h⟩ := Res.bind_eq_ok.1 h
      exact (same_setRow h1).trans (same_setRow h)
  | swapCol a b =>
    simp only [InPlace.run, Mat.swapCol] at h
    split at h
    · cases h; exact Same.rfl' _
    · obtain ⟨x, -, h⟩ := Res.bind_eq_ok.1 h
      obtain ⟨y, -, h⟩ := Res.bind_eq_ok.1 h
      obtain ⟨m1, h1, h⟩ := Res.bind_eq_ok.1 h
      exact (same_setCol h1).trans (same_setCol h)
  | moveRow a b =>
    simp only [InPlace.run, Mat.moveRow] at h
    split at h
    · cases h; exact Same.rfl' _
    · obtain ⟨x, -, h⟩ := Res.bind_eq_ok.1 h
      split at h
      all_goals
        obtain ⟨m1, h1, h⟩ := Res.bind_eq_ok.1 h
        refine Same.trans (same_foldlM (fun m b m' h => ?_) _ h1) (same_setRow h)
        refine same_foldlM (fun m b m' h => ?_) _ h
        obtain ⟨y, -, e⟩ := Res.bind_eq_ok.1 h
        exact same_setElem2 e
  | moveCol a b =>
    simp only [InPlace.run, Mat.moveCol] at h
    split at h
    · cases h; exact Same.rfl' _
    · obtain ⟨x, -, h⟩ := Res.bind_eq_ok.1 h
      split at h
      all_goals
        obtain ⟨m1, h1, h⟩ := Res.bind_eq_ok.1 h
        refine Same.trans (same_foldlM (fun m b m' h => ?_) _ h1) (same_setCol h)
        refine same_foldlM (fun m b m' h => ?_) _ h
        obtain ⟨y, -, e⟩ := Res.bind_eq_ok.1 h
        exact same_setElem2 e

/-- A call that keeps the buffer because the dimension is already right changes nothing. -/
theorem Realloc.same [Zero α] {m m' : Mat α} (f : Realloc) (h : f.run m = .ok m') (hr : f.replaces m = false) : m' = m := by
  cases f with
  | resize r c => simp [Realloc.replaces] at hr
  | setRows r =>
    simp only [Realloc.replaces, decide_eq_false_iff_not, Decidable.not_not] at hr
    simp only [Realloc.run, Mat.setRows] at h
    repeat' split at h
    all_goals first | omega | (cases h; rfl) | (cases h)
  | setCols r =>
    simp only [Realloc.replaces, decide_eq_false_iff_not, Decidable.not_not] at hr
    simp only [Realloc.run, Mat.setCols] at h
    repeat' split at h
    all_goals first | omega | (cases h; rfl) | (cases h)
  | setShel r =>
    simp only [Realloc.replaces, decide_eq_false_iff_not, Decidable.not_not] at hr
    simp only [Realloc.run, Mat.setShel] at h
    repeat' split at h
    all_goals first | omega | (cases h; rfl) | (cases h)

end Verif.Heap
