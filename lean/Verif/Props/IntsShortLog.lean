import Verif.Props.IntsShort
import Verif.Props.IntsEnds
import Verif.Props.LogLines
/-
Property C133: what can be in a short log file is little, so that nothing else need be known of six short files.
-/
namespace Verif.Ints
open QC Readers Strings LogLines Args Run
open Pun (rowLine NoLine strip)
variable {α β : Type}

/-! ### energies -/

theorem words_fill (l : Str) : ((words l).map List.length).sum ≤ l.length ∧ ∀ w ∈ words l, w ≠ [] := by
  induction l with
  | nil => exact ⟨Nat.le_refl _, fun w h => by cases h⟩
  | cons c s ih =>
    obtain ⟨h1, h2⟩ := ih
    unfold words
    split
    · exact ⟨by simp only [List.length_cons]; omega, h2⟩
    · split
      · refine ⟨by simp only [List.map_cons, List.sum_cons, List.length_cons, List.length_nil]; omega, fun w hw => ?_⟩
        rcases List.mem_cons.1 hw with rfl | hw
        · simp
        · exact h2 w hw
      · cases hs : words s with
        | nil => exact ⟨by simp, fun w hw => by simp at hw; simp [hw]⟩
        | cons w ws =>
          rw [hs] at h1 h2
          simp only [List.map_cons, List.sum_cons, List.length_cons] at h1 ⊢
          refine ⟨by omega, fun x hx => ?_⟩
          rcases List.mem_cons.1 hx with rfl | hx
          · simp
          · exact h2 x (by simp [hx])

theorem cut_len (w : Str) : (cutMinus w).length ≤ max 1 w.length := by
  induction w with
  | nil => simp [cutMinus]
  | cons c w ih =>
    unfold cutMinus
    cases hw : cutMinus w with
    | nil => simp
    | cons p ps =>
      rw [hw] at ih
      simp only [List.length_cons] at ih ⊢
      split
      · rename_i hp
        have : w ≠ [] := by
          rintro rfl
          simp only [cutMinus, List.cons.injEq] at hw
          rw [← hw.1] at hp
          cases hp
        have : 0 < w.length := List.length_pos_iff.2 this
        simp only [List.length_cons]
        omega
      · simp only [List.length_cons]; omega

theorem lineEnergies_len [Mul α] [Num α] (l : Str) : (lineEnergies l : List α).length ≤ l.length := by
  obtain ⟨h1, h2⟩ := words_fill l
  have key : ∀ ws : List Str, (∀ w ∈ ws, w ≠ []) → ws.length ≤ (ws.map List.length).sum ∧ (ws.flatMap cutMinus).length ≤ (ws.map List.length).sum := by
    intro ws
    induction ws with
    | nil => intro _; simp
    | cons w ws ih =>
      intro h
      have := ih fun x hx => h x (by simp [hx])
      have h0 : 0 < w.length := List.length_pos_iff.2 (h w (by simp))
      have := cut_len w
      simp only [List.flatMap_cons, List.length_append, List.map_cons, List.sum_cons, List.length_cons]
      omega
  have hd : (((words l).drop 4).map List.length).sum ≤ ((words l).map List.length).sum := by
    conv => rhs; rw [← List.take_append_drop 4 (words l), List.map_append, List.sum_append]
    omega
  have := key ((words l).drop 4) fun w hw => h2 w (List.mem_of_mem_drop hw)
  unfold lineEnergies
  rw [List.length_map]
  split <;> omega

theorem energies_len [Mul α] [Num α] {t : Str} {spin : Log.Spin} {i k : Nat} (h : EnergyLines t spin i k) : (energiesOn t i k : List α).length ≤ t.length := by
  have key : ∀ m ≤ k, (energiesOn t i m : List α).length + upTo t i ≤ upTo t (i + m) := by
    intro m
    induction m with
    | zero => intro _; simp [energiesOn]
    | succ m ih =>
      intro hm
      have h1 := ih (by omega)
      have h2 := (h.1 m (by omega)).1
      have h3 : i + m < (textLines t).length := by
        unfold NoLine at h2
        omega
      have h4 := lineEnergies_len (α := α) (lineAt t (i + m))
      rw [show i + (m + 1) = i + m + 1 by omega, upTo_succ h3]
      unfold energiesOn at h1 ⊢
      rw [List.range_succ, List.flatMap_append, List.length_append]
      simp only [List.flatMap_cons, List.flatMap_nil, List.append_nil]
      omega
  have := key k (Nat.le_refl _)
  have := upTo_le t (i + k)
  omega

/-! ### atoms -/

/-- Beyond the last line, the lines are all alike. -/
theorem row_stuck {t : Str} {i j k : Nat} (hi : i < (textLines t).length) (hj : (textLines t).length ≤ i + j + 1) (hk : j ≤ k) :
    rowLine t i k = rowLine t i j := by
  obtain ⟨n, rfl⟩ : ∃ n, k = j + n := ⟨k - j, by omega⟩
  clear hk
  induction n with
  | zero => rfl
  | succ n ih =>
    rw [← ih, rowLine, rowLine, if_pos hi, if_pos hi, show i + (j + (n + 1)) = i + (j + n) + 1 by omega]
    exact lineAt_last (by omega)

theorem coords_len [Mul α] [Num α] {t : Str} {i k : Nat} {pos : Nat → α × α × α} (h : CoordRows t i k pos) (hr : IsRuler (coordLine t i k)) :
    k ≤ (textLines t).length := by
  by_contra hc
  have hi : i + 1 < (textLines t).length := by
    by_contra hx
    unfold coordLine rowLine at hr
    rw [if_neg hx] at hr
    obtain ⟨a, b, e⟩ := hr
    have := congrArg List.length e
    simp at this
  obtain ⟨m, rfl⟩ : ∃ m, k = m + 1 := ⟨k - 1, by omega⟩
  refine (h m (by omega)).1 ?_
  unfold coordLine at hr ⊢
  rwa [row_stuck hi (j := m + 2) (by omega) (by omega)] at hr

/-! ### basis functions -/

theorem further_len [Mul α] [Num α] {t : Str} {i j k : Nat} {label mark : Str} {ls : List Str} (h : Further α t i label mark j ls k) :
    k = j + ls.length := by
  induction h with
  | none => rfl
  | last => rfl
  | more _ _ _ _ ih => rw [ih, List.length_cons]; omega

theorem further_stuck [Mul α] [Num α] {t : Str} {i j k s : Nat} {label mark : Str} {ls : List Str} (h : Further α t i label mark j ls k)
    (hs : ∀ x, s ≤ x → popLine t i x = popLine t i s) (he : IsEnd (popLine t i k)) : k ≤ max j s + 1 := by
  induction h with
  | none => omega
  | last => omega
  | @more label mark j ls k vals h1 h2 h3 h4 ih =>
    have := ih he
    have hk := further_len h4
    by_cases hj : j + 1 ≤ s
    · omega
    · exfalso
      apply h3
      rw [hs (j + 1) (by omega), ← hs k (by omega)]
      exact he

theorem atoms_len [Mul α] [Num α] {t : Str} {i a j e : Nat} {fs : List ((Nat × Str) × Str)} (h : Atoms α t i a j fs e) :
    e = j + fs.length ∧ IsEnd (popLine t i e) := by
  induction h with
  | @last a j elem ls k h1 h2 =>
    obtain ⟨-, -, ls', rfl, h3⟩ := h1
    have := further_len h3
    refine ⟨?_, h2⟩
    simp only [fnsOf, List.length_map, List.length_cons]
    omega
  | @more a j elem ls k fs e h1 _ _ ih =>
    obtain ⟨-, -, ls', rfl, h3⟩ := h1
    have := further_len h3
    refine ⟨?_, ih.2⟩
    simp only [fnsOf, List.length_map, List.length_cons, List.length_append]
    omega

theorem atoms_stuck [Mul α] [Num α] {t : Str} {i a j e s : Nat} {fs : List ((Nat × Str) × Str)} (h : Atoms α t i a j fs e)
    (hs : ∀ x, s ≤ x → popLine t i x = popLine t i s) : e ≤ max j s + 2 := by
  induction h with
  | @last a j elem ls k h1 h2 =>
    obtain ⟨-, -, ls', rfl, h3⟩ := h1
    have := further_stuck h3 hs h2
    omega
  | @more a j elem ls k fs e h1 h2 h4 ih =>
    obtain ⟨he, hend⟩ := atoms_len h4
    by_cases hk : k < s
    · omega
    · exfalso
      apply h2
      rw [hs k (by omega), ← hs e (by omega)]
      exact hend

theorem population_len [Mul α] [Num α] {t : Str} {i e : Nat} {fs : List ((Nat × Str) × Str)} (h : Atoms α t i 1 1 fs e) :
    e = 1 + fs.length ∧ i + e ≤ (textLines t).length + 2 := by
  obtain ⟨h1, h2⟩ := atoms_len h
  refine ⟨h1, ?_⟩
  have hi : i + 1 < (textLines t).length := by
    by_contra hx
    unfold popLine rowLine at h2
    rw [if_neg hx] at h2
    obtain ⟨a, b, e⟩ := h2
    have := congrArg List.length e
    simp at this
  have := atoms_stuck (s := (textLines t).length - 2 - i) h fun x hx => row_stuck hi (by omega) hx
  omega

theorem counts_sum {fs : List ((Nat × Str) × Str)} {counts : List Int} (h : Counts fs counts) : counts.sum ≤ fs.length := by
  obtain ⟨table, h1, h2, h3, rfl⟩ := h
  have hn : (table.flatMap fun x => x.2.map fun l => (x.1, l)).Nodup := by
    rw [List.nodup_flatMap]
    refine ⟨fun x hx => (h2 x hx).2.map fun a b e => by simpa using e, h1.imp fun {x y} hxy => ?_⟩
    intro z hz1 hz2
    obtain ⟨a, -, rfl⟩ := List.mem_map.1 hz1
    obtain ⟨b, -, e⟩ := List.mem_map.1 hz2
    have e1 : y.1 = x.1 := (Prod.mk.inj e).1
    rw [e1] at hxy
    rcases hxy with hxy | hxy
    · omega
    · rw [strLt_irrefl] at hxy
      exact absurd hxy.2 (by decide)
  have hsub : (table.flatMap fun x => x.2.map fun l => (x.1, l)) ⊆ fs := by
    intro z hz
    obtain ⟨x, hx, hz⟩ := List.mem_flatMap.1 hz
    obtain ⟨l, hl, rfl⟩ := List.mem_map.1 hz
    exact (h3 x.1 l).2 ⟨x.2, hx, hl⟩
  have hle := (List.subperm_of_subset hn hsub).length_le
  have hlen : ∀ tb : List ((Nat × Str) × List Str), ((tb.map fun x => (x.2.length : Int)).sum) = ((tb.flatMap fun x => x.2.map fun l => (x.1, l)).length : Int) := by
    intro tb
    induction tb with
    | nil => rfl
    | cons x tb ih => simp only [List.map_cons, List.sum_cons, List.flatMap_cons, List.length_append, List.length_map, ih]; push_cast; rfl
  rw [hlen]
  omega

/-! ### the whole file -/

/-- What is known is little. -/
structure Little (n : Nat) (d : Known α) : Prop where
  coords : ∀ rows, d.coords = some rows → rows.length ≤ n
  energies : ∀ spin x, d.energies spin = some x → x.1.length ≤ n

theorem says_little [Mul α] [Num α] {t : Str} {i : Nat} {d d' : Known α} (h : Says t i d d') (hd : Little (t.length + 1) d) :
    Little (t.length + 1) d' ∧ d'.functions.length + min i ((textLines t).length + 4) ≤ d.functions.length + (textLines t).length + 4 := by
  have hl : (textLines t).length ≤ t.length + 1 := by have := lines_sum t; omega
  induction h with
  | done => exact ⟨hd, by omega⟩
  | @skip i d d' _ _ _ ih =>
    obtain ⟨h1, h2⟩ := ih hd
    exact ⟨h1, by omega⟩
  | @table i k f e d d' hn _ ht _ ih =>
    have hi : i < (textLines t).length := by
      unfold NoLine at hn
      omega
    cases ht with
    | @coords k pos h1 h2 =>
      obtain ⟨q1, q2⟩ := ih ⟨fun rows hr => by cases hr; simpa using (coords_len h1 h2).trans hl, hd.energies⟩
      exact ⟨q1, by simp only at q2; omega⟩
    | @energies spin k _ h1 =>
      obtain ⟨q1, q2⟩ := ih ⟨hd.coords, fun s x hx => by
        simp only at hx
        split at hx
        · cases hx
          exact Nat.le_succ_of_le (energies_len h1)
        · exact hd.energies s x hx⟩
      exact ⟨q1, by simp only at q2; omega⟩
    | @overlap n vals h1 =>
      obtain ⟨q1, q2⟩ := ih ⟨hd.coords, hd.energies⟩
      exact ⟨q1, by simp only at q2; omega⟩
    | @population fs e h1 =>
      obtain ⟨p1, p2⟩ := population_len h1
      obtain ⟨q1, q2⟩ := ih ⟨hd.coords, hd.energies⟩
      refine ⟨q1, ?_⟩
      rw [List.length_append] at q2
      omega

/-- **C133 (short log files).** What is read from a log file of at most 23170 characters is small. -/
theorem C133_little [Zero α] [Mul α] [Num α] (files : Str → Option Str) (name : Str) (short : ∀ t, files name = some t → t.length ≤ 23170) (fuel : Nat)
    {D : LogData α} (h : Readers.readLog files fuel name = .ok D) : SmallLog D := by
  obtain ⟨t, ht⟩ : ∃ t, files name = some t := by
    obtain ⟨_, -, h⟩ := Res.bind_eq_ok.1 h
    unfold Readers.read at h
    cases hf : files name with
    | none => rw [hf] at h; cases h
    | some t => exact ⟨t, rfl⟩
  have hlen := short t ht
  have hfit : Fits t := by unfold Fits; omega
  -- the name is of no importance
  have h' : Readers.readLog (fun _ => some t) fuel (lit "a.log") = .ok D := by
    rw [congrFun (readLog_eq (α := α) (fun _ => some t) (lit "a.log") t (by unfold Fits; decide) LogLines.name_log rfl) fuel]
    obtain ⟨_, -, h⟩ := Res.bind_eq_ok.1 h
    rw [← h]
    exact (read_eq _ _ _ _ ht _ _).symm
  have hends : Ends (fun n => (Readers.readLog (fun _ => some t) n (lit "a.log") : Res (LogData α))) (.ok D) :=
    ⟨by simp, fuel, fun n hn => (Readers.readLog_mono (fun _ => some t) (lit "a.log") fuel n hn (by simp only [h']; simp)).trans h'⟩
  obtain ⟨d, hs, hg⟩ : ∃ d : Known α, Says t 0 nothing d ∧ Gives D d := by
    rcases C120_cases (α := α) t with ⟨d, hs⟩ | ⟨x, hx⟩ | hx
    · obtain ⟨D', e, hg⟩ := C120_says (fun _ => some t) (lit "a.log") t (by unfold Fits; decide) LogLines.name_log rfl hfit d hs
      have := hends.unique e
      cases this
      exact ⟨d, hs, hg⟩
    · have := hends.unique (C120_fails (fun _ => some t) (lit "a.log") t (by unfold Fits; decide) LogLines.name_log rfl hfit x hx)
      cases x <;> cases this
    · have := h'.symm.trans (C120_endless (fun _ => some t) (lit "a.log") t (by unfold Fits; decide) LogLines.name_log rfl hfit hx fuel)
      cases this
  obtain ⟨q1, q2⟩ := says_little hs ⟨fun _ h => (by cases h), fun _ _ h => (by cases h)⟩
  have hl : (textLines t).length ≤ t.length + 1 := by have := lines_sum t; omega
  refine ⟨fun S hS => ?_, fun spin es he => ?_, fun xs hxs => ?_, ?_⟩
  · have hset := readLog_settled (α := α) files name 23170 short
    have hB : (Readers.readLog files 46346 name : Res (LogData α)) = .ok D := by
      have := Readers.readLog_mono (α := α) files name fuel (max fuel 46346) (by omega) (by simp only [h]; simp)
      exact ((hset _ (by omega)).symm.trans this).trans h
    have hlog := C133_log (α := α) files name (fun x hx => short_log (by have := short x hx; omega)) 46346 (by omega)
    exact C133_limit files 46346 name (hlog.trans hB) hS
  · rcases C115_energies files fuel name h spin with ⟨e, -⟩ | ⟨hsp, -⟩
    · rw [e] at he; cases he
    · obtain ⟨sp, rfl⟩ : ∃ sp : Log.Spin, spin = sp.name := by
        rcases hsp with rfl | rfl
        · exact ⟨.alpha, rfl⟩
        · exact ⟨.beta, rfl⟩
      have := hg.energies sp
      rw [he] at this
      cases hx : d.energies sp with
      | none => rw [hx] at this; cases this
      | some x =>
        rw [hx] at this
        cases this
        have := q1.energies sp x hx
        omega
  · rw [hg.coords] at hxs
    cases hx : d.coords with
    | none => rw [hx] at hxs; cases hxs
    | some rows =>
      rw [hx] at hxs
      have := q1.coords rows hx
      simp only [List.mem_cons, List.not_mem_nil, or_false] at hxs
      rcases hxs with rfl | rfl | rfl <;> rw [List.length_map] <;> omega
  · have := counts_sum hg.functions
    have : (nothing : Known α).functions.length = 0 := rfl
    omega

/-- **C133 (short files).** With files of at most 23170 characters no `int` overflows, whatever is in them and whatever the command line is: every run of
calc_J that ends, ends in the same way when every `int` is checked. -/
theorem C133_short_run [Zero α] [One α] [Add α] [Sub α] [Mul α] [Div α] [Num α] [DecidableEq β] {D : Type} [Dbl D] (tos : α → β) (files : Str → Option Str)
    (short : ∀ name t, files name = some t → t.length ≤ 23170) (args : List Str) (hargs : ∀ v ∈ args, v.length + 4 < 2 ^ 63)
    {out : Res (Params.Params × Report α)} (h : Ends (fun n => Verif.calcJRun D tos files n args) out) :
    Ends (fun n => Ints.wholeRun D tos files n args) out :=
  C133_ends tos files args hargs (fun _ _ _ _ => ⟨fun name _ t ht => short_pun (short name t ht), fun name _ =>
    ⟨fun t ht => short_log (by have := short name t ht; omega), fun fuel _ hd => C133_little files name (short name) fuel hd⟩⟩) h

end Verif.Ints
