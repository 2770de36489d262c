import Verif.Props.Run
import Verif.Props.Fuel
/-
Property C122: when calc_J does something undefined, and when it hangs although all files are read.
-/
namespace Verif.Run
open Strings Readers QC Mat Log

section
variable {α β : Type} [Zero α]

theorem newOrder_cases (n : Nat) (first second : List (Int × Int)) :
    (Clash first second ∧ newOrder n first second = .diverge) ∨
    (¬ Clash first second ∧ Outside n (exchanges [] (first ++ second)) ∧ newOrder n first second = .ub) ∨
    (¬ Clash first second ∧ ¬ Outside n (exchanges [] (first ++ second)) ∧ ∃ o, newOrder n first second = .ok o) := by
  unfold newOrder
  by_cases h : Clash first second
  · exact .inl ⟨h, if_pos h⟩
  · right
    rw [if_neg h]
    by_cases h' : Outside n (exchanges [] (first ++ second))
    · exact .inl ⟨h, h', if_pos h'⟩
    · exact .inr ⟨h, h', _, if_neg h'⟩

/-- The four outcomes of serving requests. -/
theorem servedCols_cases (basis : List Int) (first second : List (Int × Int)) (n : Int) (f : Int → Int → α) :
    (¬ BlocksFit basis n ∧ servedCols basis first second n f = .exit 1) ∨ (Stuck basis n first second ∧ servedCols basis first second n f = .diverge) ∨
    (Lost basis n first second ∧ servedCols basis first second n f = .ub) ∨
    (Sound basis n first second ∧ ∃ g, servedCols basis first second n f = .ok g) := by
  unfold servedCols
  have hb : BlocksFit basis n ↔ ¬ ((∃ b ∈ basis, b < 1) ∨ n < basis.sum) := by
    unfold BlocksFit
    constructor
    · rintro ⟨h, h'⟩ (⟨b, hb, hl⟩ | hl)
      · have := h b hb; omega
      · omega
    · intro h
      refine ⟨fun b hb => ?_, ?_⟩
      · refine Int.not_lt.1 fun hl => h (.inl ⟨b, hb, by omega⟩)
      · refine Int.not_lt.1 fun hl => h (.inr hl)
  by_cases h : (∃ b ∈ basis, b < 1) ∨ n < basis.sum
  · exact .inl ⟨fun h' => hb.1 h' h, if_pos h⟩
  · rw [if_neg h]
    right
    have hf := hb.2 h
    rcases newOrder_cases basis.length first second with ⟨h1, e⟩ | ⟨h1, h2, e⟩ | ⟨h1, h2, o, e⟩
    · exact .inl ⟨⟨hf, h1⟩, by rw [e]; rfl⟩
    · exact .inr (.inl ⟨⟨hf, h1, h2⟩, by rw [e]; rfl⟩)
    · exact .inr (.inr ⟨⟨hf, h1, h2⟩, _, by rw [e]; rfl⟩)

theorem servedBoth_sound {basis : List Int} {first second : List (Int × Int)} {n : Int} (h : Sound basis n first second) (f : Int → Int → α) :
    ∃ g, servedBoth basis first second n n f = .ok g := by
  unfold servedBoth
  rcases servedCols_cases basis first second n f with ⟨h', -⟩ | ⟨h', -⟩ | ⟨h', -⟩ | ⟨-, g, e⟩
  · exact absurd h.1 h'
  · exact absurd h'.2 h.2.1
  · exact absurd h'.2.2 h.2.2
  · rw [e, Res.ok_bind, if_neg (by have := h.1.2; omega)]
    rcases newOrder_cases basis.length first second with ⟨h1, -⟩ | ⟨-, h1, -⟩ | ⟨-, -, o, e⟩
    · exact absurd h1 h.2.1
    · exact absurd h1 h.2.2
    · exact ⟨_, by rw [e]; rfl⟩

theorem grief_apart {basis : List Int} {n : Int} {first second : List (Int × Int)} :
    ¬ (Stuck basis n first second ∧ Lost basis n first second) ∧ ¬ (Stuck basis n first second ∧ Sound basis n first second) ∧
    ¬ (Lost basis n first second ∧ Sound basis n first second) :=
  ⟨fun h => h.2.2.1 h.1.2, fun h => h.2.2.1 h.1.2, fun h => h.2.2.2 h.1.2.2⟩

variable [DecidableEq β]

/-- The outcomes of putting the atoms in order. -/
theorem inOrder_cases (tos : α → β) (cp : Bool) (x1 x2 xP : List (α × α × α)) (b2 bP : List Int) (n : Int) (C2 CP S : Int → Int → α) :
    (inOrder tos cp x1 x2 xP b2 bP n C2 CP S = .ub ↔ ComesTo Lost tos cp x1 x2 xP b2 bP n) ∧
    (inOrder tos cp x1 x2 xP b2 bP n C2 CP S = .diverge ↔ ComesTo Stuck tos cp x1 x2 xP b2 bP n) := by
  unfold inOrder ComesTo
  cases cp with
  | true =>
    simp only [if_true]
    generalize hr : requests 0 (partners tos x1 x2) = r
    generalize hq : requests 0 (partners tos x1 xP) = q
    have a2 := @grief_apart b2 n r []
    have aP := @grief_apart bP n q []
    rcases servedCols_cases b2 r [] n C2 with ⟨h, e⟩ | ⟨h, e⟩ | ⟨h, e⟩ | ⟨h, g, e⟩
    · rw [e]
      have h1 : ¬ Lost b2 n r [] := fun x => h x.1
      have h2 : ¬ Stuck b2 n r [] := fun x => h x.1
      have h3 : ¬ Sound b2 n r [] := fun x => h x.1
      simp [h1, h2, h3, Bind.bind, Res.bind]
    · rw [e]
      have h1 : ¬ Lost b2 n r [] := fun x => a2.1 ⟨h, x⟩
      have h3 : ¬ Sound b2 n r [] := fun x => a2.2.1 ⟨h, x⟩
      simp [h1, h, h3, Bind.bind, Res.bind]
    · rw [e]
      have h1 : ¬ Stuck b2 n r [] := fun x => a2.1 ⟨x, h⟩
      have h3 : ¬ Sound b2 n r [] := fun x => a2.2.2 ⟨h, x⟩
      simp [h1, h, h3, Bind.bind, Res.bind]
    · rw [e]
      have h1 : ¬ Stuck b2 n r [] := fun x => a2.2.1 ⟨x, h⟩
      have h2 : ¬ Lost b2 n r [] := fun x => a2.2.2 ⟨x, h⟩
      simp only [h1, h2, h, false_or, true_and, Res.ok_bind]
      rcases servedCols_cases bP q [] n CP with ⟨k, e⟩ | ⟨k, e⟩ | ⟨k, e⟩ | ⟨k, g', e⟩
      · rw [e]
        have k1 : ¬ Lost bP n q [] := fun x => k x.1
        have k2 : ¬ Stuck bP n q [] := fun x => k x.1
        simp [k1, k2, Bind.bind, Res.bind]
      · rw [e]
        have k1 : ¬ Lost bP n q [] := fun x => aP.1 ⟨k, x⟩
        simp [k1, k, Bind.bind, Res.bind]
      · rw [e]
        have k1 : ¬ Stuck bP n q [] := fun x => aP.1 ⟨x, k⟩
        simp [k1, k, Bind.bind, Res.bind]
      · rw [e, Res.ok_bind]
        obtain ⟨s, es⟩ := servedBoth_sound k S
        rw [es, Res.ok_bind]
        have k1 : ¬ Stuck bP n q [] := fun x => aP.2.1 ⟨x, k⟩
        have k2 : ¬ Lost bP n q [] := fun x => aP.2.2 ⟨x, k⟩
        simp [k1, k2]
  | false =>
    simp only [Bool.false_eq_true, if_false]
    generalize requests x1.length (partners tos x2 xP) = r
    generalize requests 0 (partners tos x1 xP) = q
    have aP := @grief_apart bP n r q
    rcases servedCols_cases bP r q n CP with ⟨k, e⟩ | ⟨k, e⟩ | ⟨k, e⟩ | ⟨k, g', e⟩
    · rw [e]
      have k1 : ¬ Lost bP n r q := fun x => k x.1
      have k2 : ¬ Stuck bP n r q := fun x => k x.1
      simp [k1, k2, Bind.bind, Res.bind]
    · rw [e]
      have k1 : ¬ Lost bP n r q := fun x => aP.1 ⟨k, x⟩
      simp [k1, k, Bind.bind, Res.bind]
    · rw [e]
      have k1 : ¬ Stuck bP n r q := fun x => aP.1 ⟨x, k⟩
      simp [k1, k, Bind.bind, Res.bind]
    · rw [e, Res.ok_bind]
      obtain ⟨s, es⟩ := servedBoth_sound k S
      rw [es, Res.ok_bind]
      have k1 : ¬ Stuck bP n r q := fun x => aP.2.1 ⟨x, k⟩
      have k2 : ¬ Lost bP n r q := fun x => aP.2.2 ⟨x, k⟩
      simp [k1, k2]

omit [Zero α] [DecidableEq β] in
theorem chosen_cases (rows : List (List α)) (energies : List α × Nat) (kind : Str) (num : Int) :
    (∃ r, chosen rows energies kind num = .ok r) ∨ (∃ e, chosen rows energies kind num = .throw e) ∨ ∃ c, chosen rows energies kind num = .exit c := by
  have hreq : (∃ r, request rows.length (energies.1.length, energies.2) (some kind) (some num) = .ok r) ∨
      (∃ e, request rows.length (energies.1.length, energies.2) (some kind) (some num) = .throw e) ∨
      ∃ c, request rows.length (energies.1.length, energies.2) (some kind) (some num) = .exit c := by
    have hex : ∀ r : Int, (∃ x, request.existing rows.length r = .ok x) ∨ (∃ e, request.existing rows.length r = .throw e) ∨
        ∃ c, request.existing rows.length r = .exit c := by
      intro r
      unfold request.existing
      split
      · exact .inl ⟨_, rfl⟩
      · exact .inr (.inr ⟨_, rfl⟩)
    simp only [request]
    split
    · exact hex _
    · split
      · exact hex _
      · exact .inr (.inl ⟨_, rfl⟩)
  unfold chosen
  rcases hreq with ⟨r, e⟩ | ⟨r, e⟩ | ⟨r, e⟩
  · rw [e, Res.ok_bind]
    split
    · exact .inr (.inr ⟨_, rfl⟩)
    · exact .inl ⟨_, rfl⟩
  · rw [e]; exact .inr (.inl ⟨_, rfl⟩)
  · rw [e]; exact .inr (.inr ⟨_, rfl⟩)

/-- Neither undefined nor endless. -/
def Tame {γ : Type} (x : Res γ) : Prop := x ≠ .ub ∧ x ≠ .diverge

omit [Zero α] [DecidableEq β] in
theorem Tame.chosen {γ : Type} (rows : List (List α)) (energies : List α × Nat) (kind : Str) (num : Int) {g : Int → Res γ} (h : ∀ r, Tame (g r)) :
    Tame (Run.chosen rows energies kind num >>= g) := by
  rcases chosen_cases rows energies kind num with ⟨r, e⟩ | ⟨r, e⟩ | ⟨r, e⟩ <;> rw [e]
  · exact h r
  · exact ⟨by simp [Bind.bind, Res.bind], by simp [Bind.bind, Res.bind]⟩
  · exact ⟨by simp [Bind.bind, Res.bind], by simp [Bind.bind, Res.bind]⟩

variable [One α] [Add α] [Sub α] [Mul α] [Div α]

/-- **C122 (undefined behaviour, endless loops).** Once the files are read, the program does something undefined exactly when there is no
overlap table or an atom is not found where it should be; it hangs exactly when the requests for the atoms clash. -/
theorem C122_edges (tos : α → β) (cp : Bool) (kind1 : Str) (num1 : Int) (kind2 : Str) (num2 : Int)
    (S : Option (Nat × List (Nat × Nat × α))) (P m1 m2 : Found α) :
    (outcome tos cp kind1 num1 kind2 num2 S P m1 m2 = .ub ↔
      S = none ∨ WhenSorting S cp P m1 m2 (fun x1 x2 xP n => ComesTo Lost tos cp x1 x2 xP m2.counts P.counts n)) ∧
    (outcome tos cp kind1 num1 kind2 num2 S P m1 m2 = .diverge ↔
      WhenSorting S cp P m1 m2 (fun x1 x2 xP n => ComesTo Stuck tos cp x1 x2 xP m2.counts P.counts n)) := by
  unfold outcome
  cases S with
  | none => simp [WhenSorting, need, Bind.bind, Res.bind]
  | some s =>
  cases P with | mk oP eP aP cP =>
  cases m1 with | mk o1 e1 a1 c1 =>
  cases m2 with | mk o2 e2 a2 c2 =>
  simp only [need, Res.ok_bind]
  cases oP with
  | none => simp [WhenSorting, Bind.bind, Res.bind]
  | some oP =>
  simp only [Res.ok_bind]
  cases eP with
  | none => simp [WhenSorting, Bind.bind, Res.bind]
  | some eP =>
  simp only [Res.ok_bind]
  cases e1 with
  | none => simp [WhenSorting, Bind.bind, Res.bind]
  | some e1 =>
  simp only [Res.ok_bind]
  cases o1 with
  | none => simp [WhenSorting, Bind.bind, Res.bind]
  | some o1 =>
  simp only [Res.ok_bind]
  cases e2 with
  | none => simp [WhenSorting, Bind.bind, Res.bind]
  | some e2 =>
  simp only [Res.ok_bind]
  cases o2 with
  | none => simp [WhenSorting, Bind.bind, Res.bind]
  | some o2 =>
  simp only [Res.ok_bind]
  cases aP with
  | none => simp [WhenSorting, Bind.bind, Res.bind]
  | some aP =>
  simp only [Res.ok_bind]
  cases a1 with
  | none => simp [WhenSorting, Bind.bind, Res.bind]
  | some a1 =>
  simp only [Res.ok_bind]
  cases a2 with
  | none => simp [WhenSorting, Bind.bind, Res.bind]
  | some a2 =>
  simp only [Res.ok_bind, reduceCtorEq, false_or]
  have hW : ∀ Q, WhenSorting (some s) cp ⟨some oP, some eP, some aP, cP⟩ ⟨some o1, some e1, some a1, c1⟩ ⟨some o2, some e2, some a2, c2⟩ Q ↔
      ((width oP = s.1 ∧ (if cp = true then width o1 = s.1 ∧ width o2 = s.1 else width o1 + width o2 ≤ s.1)) ∧
        (c1 ≠ [] ∧ c2 ≠ [] ∧ cP ≠ []) ∧ Q a1 a2 aP s.1) := by
    intro Q
    constructor
    · rintro ⟨s', CP, EP, E1, C1, E2, C2, xP, x1, x2, h1, h2, h3, h4, h5, h6, h7, h8, h9, h10, h⟩
      cases h1; cases h2; cases h3; cases h4; cases h5; cases h6; cases h7; cases h8; cases h9; cases h10
      exact h
    · intro h
      exact ⟨s, oP, eP, e1, o1, e2, o2, aP, a1, a2, rfl, rfl, rfl, rfl, rfl, rfl, rfl, rfl, rfl, rfl, h⟩
  rw [hW, hW]
  by_cases hw : width oP = s.1 ∧ (if cp = true then width o1 = s.1 ∧ width o2 = s.1 else width o1 + width o2 ≤ s.1)
  swap
  · rw [if_neg hw]
    exact ⟨⟨fun h => (by cases h), fun h => absurd h.1 hw⟩, ⟨fun h => (by cases h), fun h => absurd h.1 hw⟩⟩
  rw [if_pos hw]
  have fin : ∀ x : (Int → Int → α) × (Int → Int → α) × (Int → Int → α), Tame (do
      let row1 ← chosen o1 e1 kind1 num1
      let row2 ← chosen o2 e2 kind2 num2
      if Conforming cp (width o1) (width o2) s.1 ∧ eP.1.length = oP.length then
        Res.ok (Machine.report oP.length (Machine.proj s.1 s.1 (zetaA cp (width o1) (coefficient o1 row1)) x.2.2 x.2.1)
          (Machine.proj s.1 s.1 (zetaB cp (width o1) (x.1 row2)) x.2.2 x.2.1) (fun m => eP.1.getD (m - 1).toNat 0))
      else .exit 1) := by
    intro x
    refine Tame.chosen _ _ _ _ fun r1 => Tame.chosen _ _ _ _ fun r2 => ?_
    split
    · exact ⟨by simp, by simp⟩
    · exact ⟨by simp, by simp⟩
  by_cases hc : c1 ≠ [] ∧ c2 ≠ [] ∧ cP ≠ []
  swap
  · simp only [if_neg hc]
    have := fin (coefficient o2, coefficient oP, overlap s)
    exact ⟨⟨fun h => absurd h this.1, fun h => absurd h.2.1 hc⟩, ⟨fun h => absurd h this.2, fun h => absurd h.2.1 hc⟩⟩
  simp only [if_pos hc]
  obtain ⟨k1, k2⟩ := inOrder_cases tos cp a1 a2 aP c2 cP s.1 (coefficient o2) (coefficient oP) (overlap s)
  rw [← k1, ← k2]
  cases hx : inOrder tos cp a1 a2 aP c2 cP s.1 (coefficient o2) (coefficient oP) (overlap s) with
  | ok x =>
    have := fin x
    refine ⟨⟨fun h => absurd h this.1, fun h => by cases h.2.2⟩, ⟨fun h => absurd h this.2, fun h => by cases h.2.2⟩⟩
  | throw e => exact ⟨⟨fun h => by simp [Bind.bind, Res.bind] at h, fun h => by cases h.2.2⟩, ⟨fun h => by simp [Bind.bind, Res.bind] at h, fun h => by cases h.2.2⟩⟩
  | exit e => exact ⟨⟨fun h => by simp [Bind.bind, Res.bind] at h, fun h => by cases h.2.2⟩, ⟨fun h => by simp [Bind.bind, Res.bind] at h, fun h => by cases h.2.2⟩⟩
  | ub => exact ⟨⟨fun h => ⟨hw, hc, rfl⟩, fun h => rfl⟩, ⟨fun h => by simp [Bind.bind, Res.bind] at h, fun h => by cases h.2.2⟩⟩
  | diverge => exact ⟨⟨fun h => by simp [Bind.bind, Res.bind] at h, fun h => by cases h.2.2⟩, ⟨fun h => ⟨hw, hc, rfl⟩, fun h => rfl⟩⟩

variable [Num α] {D : Type} [Args.Dbl D]

theorem Does.ub_iff {γ : Type} {f : Nat → Res γ} {out : Res γ} (hm : Mono f) (h : Does f out) : (∃ fuel, f fuel = .ub) ↔ out = .ub := by
  constructor
  · rintro ⟨n, hn⟩
    have up : ∀ m, n ≤ m → f m = .ub := fun m hm' => by
      rw [← hn]
      exact hm n m hm' (by rw [hn]; simp)
    cases out with
    | diverge => have := h n; rw [hn] at this; cases this
    | ub => rfl
    | ok x => obtain ⟨-, N, hN⟩ := h; have := hN (max n N) (Nat.le_max_right _ _); rw [up _ (Nat.le_max_left _ _)] at this; cases this
    | throw x => obtain ⟨-, N, hN⟩ := h; have := hN (max n N) (Nat.le_max_right _ _); rw [up _ (Nat.le_max_left _ _)] at this; cases this
    | exit x => obtain ⟨-, N, hN⟩ := h; have := hN (max n N) (Nat.le_max_right _ _); rw [up _ (Nat.le_max_left _ _)] at this; cases this
  · rintro rfl
    obtain ⟨-, N, hN⟩ := h
    exact ⟨N, hN N (Nat.le_refl _)⟩

/-- **C122 (undefined behaviour of the program).** When all six files are read, calc_J does something undefined exactly when the dimer's
log file has no overlap table, or an atom is not found when the atoms are put in order. -/
theorem C122_undefined (tos : α → β) (files : Str → Option Str) (args : List Str) {q : Args.Parser D} {par : Params.Params}
    (hq : Args.parse (fsOf files) Args.calcJ args = .ok q) (hpar : Args.prepareParameters q = .ok par)
    (hn : ∀ name ∈ [par.punP, par.pun1, par.pun2, par.logP, par.log1, par.log2], Fits name)
    (ht : ∀ name ∈ [par.punP, par.pun1, par.pun2, par.logP, par.log1, par.log2], ∀ text, files name = some text → Fits text)
    {spinP spin1 spin2 : Log.Spin} (sP : par.spinP = spinP.name) (s1 : par.spin1 = spin1.name) (s2 : par.spin2 = spin2.name)
    {punP pun1 pun2 : Pun.Known α} {logP log1 log2 : LogLines.Known α × List Int}
    (hpP : PunFile files par.punP (.ok punP)) (hp1 : PunFile files par.pun1 (.ok pun1)) (hp2 : PunFile files par.pun2 (.ok pun2))
    (hlP : LogFile files par.logP (.ok logP)) (hl1 : LogFile files par.log1 (.ok log1)) (hl2 : LogFile files par.log2 (.ok log2)) :
    (∃ fuel, (calcJRun D tos files fuel args : Res (Params.Params × Report α)) = .ub) ↔
      logP.1.overlap = none ∨ WhenSorting logP.1.overlap par.counterPoise (found spinP punP logP) (found spin1 pun1 log1) (found spin2 pun2 log2)
        (fun x1 x2 xP n => ComesTo Lost tos par.counterPoise x1 x2 xP log2.2 logP.2 n) := by
  have h := C122_run tos files args hq hpar hn ht sP s1 s2 hpP hp1 hp2 hlP hl1 hl2
  rw [Does.ub_iff (calcJRun_mono tos files args) h]
  unfold calcJ
  simp only [Res.ok_bind]
  refine Iff.trans ?_ (C122_edges tos par.counterPoise par.orbType1 par.orbNum1 par.orbType2 par.orbNum2 logP.1.overlap (found spinP punP logP)
    (found spin1 pun1 log1) (found spin2 pun2 log2)).1
  generalize outcome tos par.counterPoise par.orbType1 par.orbNum1 par.orbType2 par.orbNum2 logP.1.overlap (found spinP punP logP)
    (found spin1 pun1 log1) (found spin2 pun2 log2) = o
  cases o <;> simp [Bind.bind, Res.bind]

end
end Verif.Run
