import Verif.LogWords
import Verif.Props.PunLines
import Verif.Props.Energies
/-
Coordinates and energies, line by line.
-/
namespace Verif.LogLines
open Strings Log Readers
open Pun (rowLine NoLine strip)

variable {α : Type} [Mul α] [Num α] [Zero α]

/-! ### coordinates -/

theorem vecAt_numberAt {β : Type} (l : Str) (k : Nat) (f : α → Res β) :
    (vecAt (splitSt l) (k : Int) >>= fun w => Num.stod w >>= f) = numberAt l k >>= f := by
  unfold numberAt
  rw [words_eq]
  cases h : (splitSt l)[k]? with
  | none => rw [vecAt_none h]; rfl
  | some x => rw [vecAt_some h]; rfl

theorem coordLoop_step (fuel : Nat) (fid : Stream) (l : Str) (X Y Z : List α) :
    (IsRuler l → coordLoop (fuel + 1) fid l X Y Z = .ok (fid, X, Y, Z)) ∧
    (¬ IsRuler l → coordLoop (fuel + 1) fid l X Y Z = position l >>= fun p =>
      coordLoop fuel (getline fid l).2 (getline fid l).1 (X ++ [p.1]) (Y ++ [p.2.1]) (Z ++ [p.2.2])) := by
  constructor
  · intro h
    rw [coordLoop, if_pos (show foundSubStrInStr l coordEnd = true from found_contains.2 h)]
  · intro h
    have hf : ¬ foundSubStrInStr l coordEnd = true := fun h' => h (found_contains.1 h')
    rw [coordLoop, if_neg hf]
    unfold position
    simp only [bind_assoc, Res.ok_bind]
    rw [← vecAt_numberAt l 3]
    refine congrArg _ (funext fun w => congrArg _ (funext fun x => ?_))
    rw [← vecAt_numberAt l 4]
    refine congrArg _ (funext fun w => congrArg _ (funext fun y => ?_))
    rw [← vecAt_numberAt l 5]
    rfl

omit [Mul α] [Zero α] in
theorem numberAt_cases (l : Str) (k : Nat) : OkOrThrow (numberAt l k : Res α) := by
  unfold numberAt
  cases (words l)[k]? with
  | none => exact .inr ⟨_, rfl⟩
  | some w => exact Num.stod_cases w

omit [Mul α] [Zero α] in
theorem position_cases (l : Str) : OkOrThrow (position l : Res (α × α × α)) := by
  unfold position
  exact (numberAt_cases (α := α) _ _).bind fun x => (numberAt_cases (α := α) _ _).bind fun y => (numberAt_cases (α := α) _ _).bind fun z => .inl ⟨_, rfl⟩

theorem coordReader_eq {t : Str} {i : Nat} {fids : Nat → Stream} (r : FR (LogData α)) (h0 : getline r.fid [] = (rowLine t (i + 1) 0, fids 0))
    (hg : ∀ j, getline (fids j) (rowLine t (i + 1) j) = (rowLine t (i + 1) (j + 1), fids (j + 1))) (fuel : Nat) :
    coordReader fuel r = coordLoop fuel (fids 2) (coordLine t i 0) [] [] [] >>= fun x =>
      .ok { r with fid := x.1, data := { r.data with xyz := [x.2.1, x.2.2.1, x.2.2.2] } } := by
  unfold coordReader
  simp only [h0, hg]
  rfl

section
variable {t : Str} {i : Nat} {fids : Nat → Stream} (hg : ∀ j, getline (fids j) (rowLine t (i + 1) j) = (rowLine t (i + 1) (j + 1), fids (j + 1)))
include hg

theorem coordLoop_lines {k : Nat} {pos : Nat → α × α × α} (h : CoordRows t i k pos) (fuel : Nat) :
    coordLoop (fuel + k) (fids 2) (coordLine t i 0) [] [] [] =
      coordLoop fuel (fids (k + 2)) (coordLine t i k) ((List.range k).map fun j => (pos j).1) ((List.range k).map fun j => (pos j).2.1)
        ((List.range k).map fun j => (pos j).2.2) := by
  induction k generalizing fuel with
  | zero => rfl
  | succ k ih =>
    have := ih (fun j hj => h j (by omega)) (fuel + 1)
    rw [show fuel + (k + 1) = fuel + 1 + k by omega, this]
    obtain ⟨h1, h2⟩ := h k (by omega)
    have hl : coordLine t i k = rowLine t (i + 1) (k + 2) := rfl
    rw [(coordLoop_step fuel (fids (k + 2)) (coordLine t i k) _ _ _).2 h1, h2, Res.ok_bind, hl, hg (k + 2)]
    simp only [List.range_succ, List.map_append, List.map_cons, List.map_nil]
    rfl

end

theorem coordReader_says {t : Str} (hfit : AllFit t) {i k : Nat} {pos : Nat → α × α × α} (h : CoordRows t i k pos) (hr : IsRuler (coordLine t i k))
    (r : FR (LogData α)) (ha : At t (i + 1) r.fid) : ∃ fid', At t (i + k + 4) fid' ∧ ∀ fuel, k + 1 ≤ fuel → coordReader fuel r =
      .ok { r with fid := fid', data := { r.data with xyz := [(List.range k).map fun j => (pos j).1, (List.range k).map fun j => (pos j).2.1,
        (List.range k).map fun j => (pos j).2.2] } } := by
  obtain ⟨fids, e0, e1, e2, -⟩ := row_feed t (i + 1) r.fid ha hfit
  refine ⟨fids (k + 2), by have := e2 (k + 2); rwa [show i + 1 + (k + 2) + 1 = i + k + 4 by omega] at this, fun fuel hf => ?_⟩
  obtain ⟨m, rfl⟩ : ∃ m, fuel = m + 1 + k := ⟨fuel - 1 - k, by omega⟩
  rw [coordReader_eq r e0 e1, coordLoop_lines e1 h, (coordLoop_step _ _ _ _ _ _).1 hr]
  rfl

theorem coordReader_bad {t : Str} (hfit : AllFit t) {i k : Nat} {pos : Nat → α × α × α} (h : CoordRows t i k pos) (hr : ¬ IsRuler (coordLine t i k))
    {e : Exn} (he : (position (coordLine t i k) : Res (α × α × α)) = .throw e)
    (r : FR (LogData α)) (ha : At t (i + 1) r.fid) (fuel : Nat) (hf : k + 1 ≤ fuel) : coordReader fuel r = .throw e := by
  obtain ⟨fids, e0, e1, e2, -⟩ := row_feed t (i + 1) r.fid ha hfit
  obtain ⟨m, rfl⟩ : ∃ m, fuel = m + 1 + k := ⟨fuel - 1 - k, by omega⟩
  rw [coordReader_eq r e0 e1, coordLoop_lines e1 h, (coordLoop_step _ _ _ _ _ _).2 hr, he]
  rfl

theorem coordReader_endless {t : Str} (hfit : AllFit t) {i : Nat} {pos : Nat → α × α × α} (h : ∀ k, CoordRows t i k pos)
    (r : FR (LogData α)) (ha : At t (i + 1) r.fid) (fuel : Nat) : coordReader fuel r = .diverge := by
  obtain ⟨fids, e0, e1, e2, -⟩ := row_feed t (i + 1) r.fid ha hfit
  have := coordLoop_lines e1 (h fuel) 0
  rw [Nat.zero_add] at this
  rw [coordReader_eq r e0 e1, this]
  rfl

theorem coord_trichotomy (t : Str) (i : Nat) : (∃ f e, i < e ∧ Table (α := α) t i .coords f e) ∨ (∃ x, BadTable α t i .coords x) ∨ EndlessTable α t i .coords := by
  have hv : ∃ pos : Nat → α × α × α, ∀ j v, position (coordLine t i j) = .ok v → pos j = v :=
    ⟨fun j => match (position (coordLine t i j) : Res (α × α × α)) with | .ok v => v | _ => (0, 0, 0), fun j v h => by simp only [h]⟩
  obtain ⟨pos, hv⟩ := hv
  by_cases h : ∀ k, CoordRows t i k pos
  · exact .inr (.inr (.coords h))
  · have : ∃ k, CoordRows t i k pos ∧ ¬ CoordRows t i (k + 1) pos := by
      apply Classical.byContradiction
      intro hc
      refine h fun k => ?_
      induction k with
      | zero => intro j hj; omega
      | succ k ih => exact Classical.byContradiction fun hk => hc ⟨k, ih, hk⟩
    obtain ⟨k, h1, h2⟩ := this
    by_cases hcomp : IsRuler (coordLine t i k)
    · exact .inl ⟨_, _, by omega, .coords h1 hcomp⟩
    · rcases position_cases (α := α) (coordLine t i k) with ⟨v, hl⟩ | ⟨e, hl⟩
      · exfalso
        refine h2 fun j hj => ?_
        by_cases hjk : j = k
        · subst hjk
          exact ⟨hcomp, by rw [hv j v hl]; exact hl⟩
        · exact h1 j (by omega)
      · exact .inr (.inl ⟨_, .coords h1 hcomp hl⟩)

/-! ### energies -/

/-- Reading is about to go on with line `i`. -/
def Here (t : Str) (i : Nat) (fid : Readers.Stream) (pos : Option Str) : Prop :=
  (∃ pre rest, textLines t = pre ++ textLines rest ∧ pre.length = i ∧ fid = openText rest ∧ pos = some rest) ∨
    ((fid.eof = true ∨ fid.fail = true) ∧ NoLine t i)

theorem At.here {t : Str} {i : Nat} {fid : Readers.Stream} (h : At t i fid) : Here t i (tellg fid).2 (tellg fid).1 := by
  rcases h with ⟨pre, rest, e, hp, rfl⟩ | ⟨hb, hl⟩
  · exact .inl ⟨pre, rest, e, hp, rfl, rfl⟩
  · refine .inr ⟨.inr ?_, .inl hl⟩
    unfold tellg
    rw [if_pos (by simpa using hb)]

theorem Here.at {t : Str} {i : Nat} {fid : Readers.Stream} {pos : Option Str} (h : Here t i fid pos) (hn : ¬ NoLine t i) : At t i fid := by
  rcases h with ⟨pre, rest, e, hp, rfl, -⟩ | ⟨-, hl⟩
  · exact .inl ⟨pre, rest, e, hp, rfl⟩
  · exact absurd hl hn

theorem Here.getline_none {t : Str} {i : Nat} {fid : Readers.Stream} {pos : Option Str} (h : Here t i fid pos) (hn : NoLine t i) (prev : Str) :
    (getline fid prev).2.fail = true := by
  rcases h with ⟨pre, rest, e, hp, rfl, -⟩ | ⟨hb, -⟩
  · exact At.getline_none (.inl ⟨pre, rest, e, hp, rfl⟩) hn prev
  · rw [getline_bad hb]

/-- Seeking back after a line has been read. -/
theorem Here.back {t : Str} {i : Nat} {fid : Readers.Stream} {pos : Option Str} (h : Here t i fid pos) (hn : ¬ NoLine t i)
    {fid' : Readers.Stream} (hf : fid'.fail = false) : seekg fid' pos = fid ∧ Here t i (tellg fid).2 (tellg fid).1 := by
  rcases h with ⟨pre, rest, e, hp, rfl, rfl⟩ | ⟨-, hl⟩
  · refine ⟨?_, .inl ⟨pre, rest, e, hp, rfl, rfl⟩⟩
    unfold seekg
    rw [hf]
    rfl
  · exact absurd hl hn

theorem found_occ {spin : Spin} {l : Str} : foundSubStrInStr l ((lit " ") ++ spin.name ++ (lit "  occ. eigenvalues -- ")) = true ↔ IsOcc spin l := found_contains
theorem found_virt {spin : Spin} {l : Str} : foundSubStrInStr l ((lit " ") ++ spin.name ++ (lit " virt. eigenvalues -- ")) = true ↔ IsVirt spin l := found_contains

theorem split_lineEnergies (l : Str) : ∃ v, splitStEnergies l = .ok v ∧ (v.drop 4).map Num.atof = (lineEnergies l : List α) := by
  refine ⟨_, C114_items l (words l) (words_layout l), ?_⟩
  unfold lineEnergies
  split
  · rfl
  · congr 1
    by_cases h : 4 ≤ (words l).length
    · rw [List.drop_append_of_le_length (by rw [List.length_take]; omega), List.drop_eq_nil_of_le (by rw [List.length_take]; omega)]
      rfl
    · rw [List.drop_eq_nil_of_le (by omega : (words l).length ≤ 4)]
      simp

/-- What a table of energies leaves. -/
noncomputable def energyData (d : LogData α) (t : Str) (spin : Spin) (i k : Nat) : LogData α :=
  { d with oe := d.oe.set spin.name (energiesOn t i k), homo := d.homo.set spin.name (occupiedOn α t spin i k : Int) }

theorem energiesOn_succ (t : Str) (i k : Nat) : (energiesOn t i (k + 1) : List α) = energiesOn t i k ++ lineEnergies (lineAt t (i + k)) := by
  unfold energiesOn
  rw [List.range_succ, List.flatMap_append]
  simp

open Classical in
theorem occupiedOn_succ (t : Str) (spin : Spin) (i k : Nat) : occupiedOn α t spin i (k + 1) =
    occupiedOn α t spin i k + if IsOcc spin (lineAt t (i + k)) then (lineEnergies (lineAt t (i + k)) : List α).length else 0 := by
  unfold occupiedOn
  rw [List.range_succ, List.map_append, List.sum_append]
  simp

theorem energiesLoop_lines {t : Str} {spin : Spin} {i k : Nat} (h : ∀ j < k, ¬ NoLine t (i + j) ∧ (IsOcc spin (lineAt t (i + j)) ∨ IsVirt spin (lineAt t (i + j))))
    (r : FR (LogData α)) (hr : Here t i r.fid r.pos) (d : LogData α) (hd : r.data = energyData d t spin i 0) (line : Str) :
    ∃ fid pos line', Here t (i + k) fid pos ∧ ∀ fuel, energiesLoop spin.name (fuel + k) r line = energiesLoop spin.name fuel ⟨fid, pos, energyData d t spin i k⟩ line' := by
  induction k with
  | zero =>
    refine ⟨r.fid, r.pos, line, hr, fun fuel => ?_⟩
    rw [← hd]
    rfl
  | succ k ih =>
    obtain ⟨fid, pos, line', h1, h2⟩ := ih (fun j hj => h j (by omega))
    obtain ⟨hn, ho⟩ := h k (by omega)
    obtain ⟨fid', hg, hf, hat⟩ := (h1.at hn).getline_some hn line'
    refine ⟨(tellg fid').2, (tellg fid').1, lineAt t (i + k), At.here hat, fun fuel => ?_⟩
    rw [show fuel + (k + 1) = fuel + 1 + k by omega, h2, energiesLoop]
    obtain ⟨v, hv1, hv2⟩ := split_lineEnergies (α := α) (lineAt t (i + k))
    simp only [hg, hf, Bool.false_eq_true, if_false]
    rw [if_pos (by rw [Bool.or_eq_true, found_occ, found_virt]; exact ho), hv1]
    simp only [Res.ok_bind]
    congr 2
    unfold energyData
    rw [pushEnergies_eq, hv2, energiesOn_succ, occupiedOn_succ, ← List.length_map (f := Num.atof (α := α)) (as := List.drop 4 v), hv2]
    congr 2
    by_cases hocc : IsOcc spin (lineAt t (i + k))
    · rw [if_pos (found_occ.2 hocc), if_pos hocc, Int.natCast_add]
    · rw [if_neg (fun h => hocc (found_occ.1 h)), if_neg hocc]
      simp

theorem readOrbEnergies_says {t : Str} {spin : Spin} {i k : Nat} (hn : ¬ NoLine t i) (h : EnergyLines t spin i k) (r : FR (LogData α))
    (hr : Here t i r.fid r.pos) : ∃ fid pos, Here t (i + k) (tellg fid).2 (tellg fid).1 ∧
      ∀ fuel, k + 1 ≤ fuel → readOrbEnergies spin.name fuel r = .ok ⟨fid, pos, energyData r.data t spin i k⟩ := by
  obtain ⟨fid, pos, line', h1, h2⟩ := energiesLoop_lines h.1 { r with data := { r.data with homo := r.data.homo.set spin.name 0, oe := r.data.oe.set spin.name [] } }
    hr r.data rfl []
  have key : ∀ fid', (∀ m, energiesLoop spin.name (m + 1) ⟨fid, pos, energyData r.data t spin i k⟩ line' = .ok ⟨fid', pos, energyData r.data t spin i k⟩) →
      ∀ fuel, k + 1 ≤ fuel → readOrbEnergies spin.name fuel r = .ok ⟨seekg fid' pos, pos, energyData r.data t spin i k⟩ := by
    intro fid' hk fuel hf
    obtain ⟨m, rfl⟩ : ∃ m, fuel = m + 1 + k := ⟨fuel - 1 - k, by omega⟩
    unfold readOrbEnergies
    simp only []
    rw [h2, hk]
    rfl
  by_cases hk : NoLine t (i + k)
  · have hg := h1.getline_none hk line'
    refine ⟨seekg (getline fid line').2 pos, pos, ?_, key _ fun m => ?_⟩
    · refine .inr ⟨.inr ?_, hk⟩
      unfold seekg tellg
      simp only [hg, if_true, Bool.or_true]
    · rw [energiesLoop]
      simp only [hg, if_true]
  · obtain ⟨fid', hg, hf, hat⟩ := (h1.at hk).getline_some hk line'
    obtain ⟨hb, hh⟩ := h1.back hk hf
    refine ⟨seekg fid' pos, pos, by rw [hb]; exact hh, key _ fun m => ?_⟩
    rw [energiesLoop]
    simp only [hg, hf, Bool.false_eq_true, if_false]
    rw [if_neg]
    rcases h.2 with h' | ⟨ha, hb⟩
    · exact absurd h' hk
    · rw [Bool.or_eq_true, found_occ, found_virt]
      exact fun h => h.elim ha hb

theorem energy_dichotomy (t : Str) (spin : Spin) (i : Nat) : (∃ f e, i < e ∧ Table (α := α) t i (.energies spin) f e) ∨ EndlessTable α t i (.energies spin) := by
  have : ∃ k, EnergyLines t spin i k := by
    have : ∀ n i, (textLines t).length - i ≤ n → ∃ k, EnergyLines t spin i k := by
      intro n
      induction n with
      | zero => exact fun i hi => ⟨0, fun j hj => absurd hj (by omega), .inl (.inl (by omega))⟩
      | succ n ih =>
        intro i hi
        by_cases hn : NoLine t i
        · exact ⟨0, fun j hj => absurd hj (by omega), .inl hn⟩
        by_cases ho : IsOcc spin (lineAt t i) ∨ IsVirt spin (lineAt t i)
        · obtain ⟨k, h1, h2⟩ := ih (i + 1) (by omega)
          refine ⟨k + 1, fun j hj => ?_, ?_⟩
          · cases j with
            | zero => exact ⟨hn, ho⟩
            | succ j => rw [show i + (j + 1) = i + 1 + j by omega]; exact h1 j (by omega)
          · rw [show i + (k + 1) = i + 1 + k by omega]; exact h2
        · exact ⟨0, fun j hj => absurd hj (by omega), .inr ⟨fun h => ho (.inl h), fun h => ho (.inr h)⟩⟩
    exact this _ i (Nat.le_refl _)
  obtain ⟨k, hk⟩ := this
  cases k with
  | zero => exact .inr (.energies hk)
  | succ k => exact .inl ⟨_, _, by omega, .energies (by omega) hk⟩

end Verif.LogLines
