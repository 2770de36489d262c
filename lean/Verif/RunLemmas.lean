import Verif.Spec.Run
import Verif.Props.PunLines
import Verif.Props.LogLines
import Verif.Props.Unscramble
import Verif.Props.Machine
import Verif.Props.Outcome
import Verif.Props.Fuel
import Mathlib.Data.List.Sort
import Mathlib.Data.List.Dedup
/-
Lemmas for C122.
-/
namespace Verif.Run
open Strings Readers QC Mat Log

variable {α β : Type}

/-! ### tables of coefficients -/

/-- The matrix of a table of coefficients. -/
structure Tab [Zero α] (m : Mat α) (t : List (List α)) : Prop where
  ne : t ≠ []
  rows : m.rows = t.length
  cols : m.cols = width t
  shel : m.shel = 1
  values : width t ≠ 0 → Values m t.length (width t) (coefficient t)

theorem tab_of [Zero α] {rows : List (List α)} {m : Mat α} (h : ofVecVec rows = .ok m) : Tab m rows := by
  cases rows with
  | nil => rw [(C04_ofVecVec []).1 rfl] at h; cases h
  | cons v vs =>
    have he : ∀ w ∈ v :: vs, w.length = v.length := Classical.byContradiction fun hc => by
      have := (C04_ofVecVec (v :: vs)).2.1 v rfl (by
        simpa only [Classical.not_forall, exists_prop] using hc)
      rw [h] at this; cases this
    obtain ⟨m', e, hi, h3, h4, h6, h5⟩ := (C04_ofVecVec (v :: vs)).2.2 v rfl he
    rw [h] at e
    cases e
    refine ⟨by simp, h3, h4, h6, fun hw => ⟨⟨hi, ?_, ?_, by omega⟩, h3, h4, h6, fun i j i1 i2 j1 j2 => ?_⟩⟩
    · rw [h3, List.length_cons]; omega
    · unfold width at hw; simp only [List.headD_cons] at hw; omega
    · have hi' : (i - 1).toNat < (v :: vs).length := by omega
      have hj' : (j - 1).toNat < (v :: vs)[(i - 1).toNat].length := by
        rw [he _ (List.getElem_mem hi')]
        unfold width at j2; simp only [List.headD_cons] at j2; omega
      have := h5 _ hi' _ hj'
      rw [show (((i - 1).toNat : Int) + 1) = i by omega, show (((j - 1).toNat : Int) + 1) = j by omega] at this
      rw [this]
      unfold coefficient
      have e1 : (v :: vs).getD (i - 1).toNat [] = (v :: vs)[(i - 1).toNat] := by
        rw [List.getD_eq_getElem?_getD, List.getElem?_eq_getElem hi', Option.getD_some]
      rw [e1, List.getD_eq_getElem?_getD, List.getElem?_eq_getElem hj', Option.getD_some]

/-! ### matching atoms -/

theorem partner_spec [DecidableEq β] (tos : α → β) (atoms : List (α × α × α)) (p : α × α × α) :
    (partner tos atoms p = -1 ∧ ∀ q ∈ atoms, ¬ Same tos p q) ∨
    ∃ (k : Nat) (h : k < atoms.length), partner tos atoms p = (k : Int) + 1 ∧ Same tos p atoms[k] ∧
      ∀ (k' : Nat) (h' : k' < atoms.length), k < k' → ¬ Same tos p atoms[k'] := by
  unfold partner
  cases e : atoms.reverse.findIdx? (fun q => decide (Same tos p q)) with
  | none =>
    refine .inl ⟨rfl, fun q hq => ?_⟩
    rw [List.findIdx?_eq_none_iff] at e
    simpa using e q (by simpa using hq)
  | some k =>
    rw [List.findIdx?_eq_some_iff_getElem] at e
    obtain ⟨h, h1, h2⟩ := e
    rw [List.length_reverse] at h
    refine .inr ⟨atoms.length - 1 - k, by omega, by show (atoms.length : Int) - k = _; omega, ?_, fun k' h' hk => ?_⟩
    · rw [List.getElem_reverse] at h1; simpa using h1
    · have := h2 (atoms.length - 1 - k') (by omega)
      rw [List.getElem_reverse] at this
      have e2 : atoms.length - 1 - (atoms.length - 1 - k') = k' := by omega
      simpa [e2] using this

theorem matchCol_partners [DecidableEq β] (tos : α → β) {m m' : Mat α} {x x' : List (α × α × α)} (h : CoordsOf m x) (h' : CoordsOf m' x') :
    matchCol tos m m' = .ok (partners tos x x') := by
  by_cases hx : x = []
  · subst hx
    unfold matchCol
    rw [if_neg (by rw [h.shel, h'.shel]; omega), if_neg (by rw [h.rows, h'.rows]; omega), h.cols]
    rfl
  by_cases hx' : x' = []
  · subst hx'
    unfold matchCol
    rw [if_neg (by rw [h.shel, h'.shel]; omega), if_neg (by rw [h.rows, h'.rows]; omega), h.cols, h'.cols]
    have : ∀ (l : List Int) (v : List Int), l.foldlM (fun vec i => forRange 1 (([] : List (α × α × α)).length : Int) vec fun vec ii => do
        let ok ← allMatch tos (fun j => m.getElem2 j i) (fun j => m'.getElem2 j ii) (irange 1 m.rows)
        if ok then vecSet vec (i - 1) ii else Res.ok vec) v = .ok v := by
      intro l v
      induction l with
      | nil => rfl
      | cons i l ih => exact ih
    unfold forRange at this ⊢
    rw [this]
    congr 1
    unfold partners
    rw [List.eq_replicate_of_mem (l := x.map (partner tos [])) (a := -1) (by
      intro b hb
      obtain ⟨p, -, rfl⟩ := List.mem_map.1 hb
      rfl)]
    simp
  have hl : 1 ≤ x.length := List.length_pos_iff.2 hx
  have hl' : 1 ≤ x'.length := List.length_pos_iff.2 hx'
  have w : WF m := ⟨h.init, by rw [h.rows]; omega, by rw [h.cols]; omega, by rw [h.shel]⟩
  have w' : WF m' := ⟨h'.init, by rw [h'.rows]; omega, by rw [h'.cols]; omega, by rw [h'.shel]⟩
  obtain ⟨v, e, hvl, hv⟩ := C22_matchCol tos w w' h.shel h'.shel (by rw [h.rows, h'.rows])
  rw [e]
  congr 1
  rw [h.cols] at hvl
  apply List.ext_getElem (by unfold partners; rw [List.length_map]; omega)
  intro t ht1 ht2
  unfold partners at ht2 ⊢
  rw [List.length_map] at ht2
  rw [List.getElem_map]
  have like : ∀ (k : Nat) (hk : k < x'.length), ColPrintsLike tos m m' (t + 1) ((k : Int) + 1) ↔ Same tos x[t] x'[k] := by
    intro k hk
    rw [h.like h' (by omega) (by omega) (by omega) (by omega)]
    simp only [Int.add_sub_cancel, Int.toNat_natCast]
    rfl
  rcases hv t ht1 with ⟨a1, a2⟩ | ⟨a1, a2, a3, a4⟩ <;> rcases partner_spec tos x' x[t] with ⟨b1, b2⟩ | ⟨k, hk, b1, b2, b3⟩
  · rw [a1, b1]
  · exact absurd ((like k hk).2 b2) (a2 _ (by omega) (by rw [h'.cols]; omega))
  · rw [h'.cols] at a2
    obtain ⟨k, hk⟩ : ∃ k : Nat, v[t] = (k : Int) + 1 := ⟨(v[t] - 1).toNat, by omega⟩
    rw [hk] at a3 a2
    exact absurd ((like k (by omega)).1 a3) (b2 _ (List.getElem_mem _))
  · rw [h'.cols] at a2 a4
    obtain ⟨k2, hk2⟩ : ∃ k : Nat, v[t] = (k : Int) + 1 := ⟨(v[t] - 1).toNat, by omega⟩
    rw [hk2] at a2 a3 a4
    rw [hk2, b1]
    have c1 := (like k2 (by omega)).1 a3
    rcases Nat.lt_trichotomy k k2 with hlt | rfl | hlt
    · exact absurd c1 (b3 k2 (by omega) hlt)
    · rfl
    · exact absurd ((like k hk).2 b2) (a4 _ (by omega) (by omega))

/-! ### counting basis functions -/

/-- The order of the atoms. -/
def Before (x y : Nat × Str) : Prop := x.1 < y.1 ∨ (x.1 = y.1 ∧ strLt x.2 y.2 = true)

theorem Before.trans {x y z : Nat × Str} (h : Before x y) (h' : Before y z) : Before x z := by
  rcases h with h | ⟨h, g⟩ <;> rcases h' with h' | ⟨h', g'⟩
  · exact .inl (by omega)
  · exact .inl (by omega)
  · exact .inl (by omega)
  · exact .inr ⟨by omega, strLt_trans g g'⟩

theorem Before.irrefl (x : Nat × Str) : ¬ Before x x := by
  rintro (h | ⟨-, h⟩)
  · omega
  · rw [strLt_irrefl] at h; cases h

instance : Std.Irrefl Before := ⟨Before.irrefl⟩
instance : Std.Antisymm Before := ⟨fun _ _ h h' => absurd (h.trans h') (Before.irrefl _)⟩

theorem counts_eq {fs : List ((Nat × Str) × Str)} {counts : List Int} (h : LogLines.Counts fs counts) :
    ∃ keys : List (Nat × Str), keys.Pairwise Before ∧ (∀ key, key ∈ keys ↔ ∃ label, (key, label) ∈ fs) ∧
      counts = keys.map (fun key => ((((fs.filter (fun f => f.1 = key)).map (·.2)).dedup.length : Nat) : Int)) := by
  obtain ⟨table, h1, h2, h3, rfl⟩ := h
  refine ⟨table.map (·.1), (List.pairwise_map (f := Prod.fst) (R := Before)).2 h1, fun key => ?_, ?_⟩
  · rw [List.mem_map]
    constructor
    · rintro ⟨x, hx, rfl⟩
      obtain ⟨l, hl⟩ := List.exists_mem_of_ne_nil _ (h2 x hx).1
      exact ⟨l, (h3 _ _).2 ⟨_, hx, hl⟩⟩
    · rintro ⟨l, hl⟩
      obtain ⟨ls, hx, -⟩ := (h3 _ _).1 hl
      exact ⟨_, hx, rfl⟩
  · rw [List.map_map]
    apply List.map_congr_left
    intro x hx
    simp only [Function.comp]
    congr 1
    apply List.Perm.length_eq
    rw [List.perm_ext_iff_of_nodup (h2 x hx).2 (List.nodup_dedup _)]
    intro l
    rw [List.mem_dedup, List.mem_map]
    constructor
    · intro hl
      exact ⟨(x.1, l), List.mem_filter.2 ⟨(h3 _ _).2 ⟨_, hx, hl⟩, by simp⟩, rfl⟩
    · rintro ⟨⟨k, l'⟩, hf, rfl⟩
      obtain ⟨hf, hk⟩ := List.mem_filter.1 hf
      simp only [decide_eq_true_eq] at hk
      subst hk
      obtain ⟨ls, hx', hl⟩ := (h3 _ _).1 hf
      have : (x.1, ls) = x := by
        by_contra hne
        have key : ∀ (t : List ((Nat × Str) × List Str)), t.Pairwise (fun a b => Before a.1 b.1) → x ∈ t → (x.1, ls) ∈ t → False := by
          intro t ht ha hb
          induction t with
          | nil => cases ha
          | cons y t ih =>
            rw [List.pairwise_cons] at ht
            rcases List.mem_cons.1 ha with e1 | ha
            · rcases List.mem_cons.1 hb with e2 | hb
              · exact hne (e2.trans e1.symm)
              · have := ht.1 _ hb; rw [← e1] at this; exact Before.irrefl _ this
            · rcases List.mem_cons.1 hb with e2 | hb
              · have := ht.1 _ ha; rw [← e2] at this; exact Before.irrefl _ this
              · exact ih ht.2 ha hb
        exact key table h1 hx hx'
      rw [← this]; exact hl

theorem counts_unique {fs : List ((Nat × Str) × Str)} {a b : List Int} (h : LogLines.Counts fs a) (h' : LogLines.Counts fs b) : a = b := by
  obtain ⟨k, h1, h2, rfl⟩ := counts_eq h
  obtain ⟨k', h1', h2', rfl⟩ := counts_eq h'
  rw [h1.eq_of_mem_iff h1' (fun x => (h2 x).trans (h2' x).symm)]

/-! ### the orbitals asked for -/

theorem getRow_narrow [Zero α] {m : Mat α} (h : m.cols = 0) (R : Int) : m.getRow R = .exit 1 := by
  unfold Mat.getRow
  split
  · rfl
  · unfold mk3
    rw [if_neg (by omega), if_pos (by omega)]
    rfl

theorem selected_tab [Zero α] {γ : Type} {coef : Mat α} {rows : List (List α)} {c : Int → Int → α} (hcols : coef.cols = width rows)
    (hv : width rows ≠ 0 → Values coef rows.length (width rows) c) (E : List α × Nat)
    (types : Str → Option Str) (nums : Str → Option Int) (key kind : Str) (num : Int) (ht : types key = some kind) (hn : nums key = some num)
    (k : Mat α → Res γ) {d : Mat α} (hd : Mat.default = .ok d) (g : Int → Res γ)
    (hk : width rows ≠ 0 → ∀ (row : Int) a, 1 ≤ row → row ≤ rows.length → Values a 1 (width rows) (fun _ j => c row j) → k a = g row) :
    (mapAt types key >>= fun kd => mapAt nums key >>= fun n => selectRow coef ((E.1.length : Int), (E.2 : Int)) kd n >>= fun r => d.assign r >>= k) =
      (chosen rows E kind num >>= g) := by
  unfold chosen
  by_cases hw : width rows = 0
  · simp only [hw, if_true]
    unfold mapAt
    rw [ht, hn]
    simp only [Res.ok_bind]
    have ex : ∀ R, coef.getRow R = .exit 1 := getRow_narrow (by rw [hcols, hw]; rfl)
    unfold selectRow request request.existing
    simp only [ex]
    by_cases c1 : kind = "HOMO".toList
    · have c2 : ¬ kind = "LUMO".toList := by rw [c1]; decide
      rw [if_pos c1]
      by_cases c3 : num > 0
      · rw [if_pos c3, if_neg (by omega), if_neg (by tauto)]; rfl
      · rw [if_neg c3]
        by_cases c4 : num ≤ -1 * (E.2 : Int)
        · rw [if_pos c4, if_neg (by intro hh; have := hh.2.1; omega), if_neg (by tauto)]; rfl
        · rw [if_neg c4, if_pos ⟨c1, by omega, by omega⟩]
          split <;> rfl
    · have nh : ¬ (kind = "HOMO".toList ∧ -(E.2 : Int) < num ∧ num ≤ 0) := fun hh => c1 hh.1
      rw [if_neg c1, if_neg nh]
      by_cases c2 : kind = "LUMO".toList
      · rw [if_pos c2]
        by_cases c3 : num < 0
        · rw [if_pos c3, if_neg (by omega)]; rfl
        · rw [if_neg c3]
          by_cases c4 : num ≥ (E.1.length : Int) - (E.2 : Int)
          · rw [if_pos c4, if_neg (by omega)]; rfl
          · rw [if_neg c4, if_pos ⟨c2, by omega, by omega⟩]
            split <;> rfl
      · have nl : ¬ (kind = "LUMO".toList ∧ 0 ≤ num ∧ num < (E.1.length : Int) - (E.2 : Int)) := fun hh => c2 hh.1
        rw [if_neg c2, if_neg nl]; rfl
  · simp only [hw, if_false, bind_assoc]
    rw [selected (hv hw) _ types nums key k hd g (hk hw), ht, hn]
    congr 1

/-! ### the numbers -/

section
variable [Zero α] [One α] [Add α] [Sub α] [Mul α] [Div α] {coef1 coef2 coefP S oe : Mat α} {cp : Bool}
  {n1 n2 M N K : Int} {u v : Int → α} {C s : Int → Int → α}

theorem report_exit (h : calculateTransferIntegral coef1 coef2 coefP S oe cp = .exit 1) : transferReport coef1 coef2 coefP S oe cp = .exit 1 := by
  unfold calculateTransferIntegral at h
  cases e : transferReport coef1 coef2 coefP S oe cp <;> rw [e] at h <;> first | cases h | skip
  simpa using h

/-- The energies are looked at after the projections are computed. -/
theorem report_split (coef1 coef2 coefP S : Mat α) (cp : Bool) : ∃ (pre : Res (Mat α × Mat α × Mat α × Mat α × Mat α))
    (k : Mat α × Mat α × Mat α × Mat α × Mat α → Mat α → Res (Report α)),
    ∀ oe, transferReport coef1 coef2 coefP S oe cp = pre >>= fun x => oe.diag >>= k x := by
  refine ⟨(do
    let inv1 ← coef1.invert
    let inv2 ← coef2.invert
    let invP ← coefP.invert
    let dA ← Mat.default
    let dB ← Mat.default
    let (zetaA, zetaB) ← (if cp then do
        let a ← dA.assign inv1
        let b ← dB.assign inv2
        Res.ok (a, b)
      else do
        let zerosA ← Mat.mk3 inv1.rows 1 inv1.shel
        let zerosB ← Mat.mk3 inv2.rows 1 inv2.shel
        let ca ← inv1.concatRows zerosB
        let a ← dA.assign ca
        let cb ← zerosA.concatRows inv2
        let b ← dB.assign cb
        Res.ok (a, b))
    let zAi ← zetaA.invert
    let zBi ← zetaB.invert
    let inter ← S.mul invP
    let gA ← zAi.mul inter
    let gB ← zBi.mul inter
    let gAi ← gA.invert
    let gBi ← gB.invert
    let sAB ← gB.mul gAi
    .ok (gA, gB, gAi, gBi, sAB)), fun x energy => do
    let t1 ← energy.mul x.2.2.1
    let jAB ← x.2.1.mul t1
    let t2 ← energy.mul x.2.2.2.1
    let eB ← x.2.1.mul t2
    let t3 ← energy.mul x.2.2.1
    let eA ← x.1.mul t3
    let Jab ← jAB.getElem2 1 1
    let eb ← eB.getElem2 1 1
    let ea ← eA.getElem2 1 1
    let Sab ← x.2.2.2.2.getElem2 1 1
    .ok ⟨Jab, ea, eb, Sab, (Jab - 1 / (1 + 1) * (eb + ea) * Sab) / (1 - Sab * Sab)⟩, fun oe => ?_⟩
  unfold transferReport
  cases cp <;> simp only [bind_assoc, Res.ok_bind, if_true, if_false, Bool.false_eq_true]

/-- The energies are a vector, or there are none. -/
theorem report_total (h1 : Values coef1 1 n1 (fun _ j => u j)) (h2 : Values coef2 1 n2 (fun _ j => v j)) (hP : Values coefP M N C)
    (hS : Values S K N s) {E : List α} (hE : ofVec E = .ok oe) :
    transferReport coef1 coef2 coefP S oe cp =
      if Conforming cp n1 n2 K ∧ (E.length : Int) = M then
        .ok (Machine.report M (Machine.proj K N (zetaA cp n1 u) s C) (Machine.proj K N (zetaB cp n1 v) s C) (fun m => E.getD (m - 1).toNat 0))
      else .exit 1 := by
  by_cases hne : E = []
  · subst hne
    have hM := hP.pos.1
    rw [if_neg (by simp; omega)]
    obtain ⟨oe', -, hv⟩ := ofVec_vector (List.replicate (M.toNat + 1) (0 : α)) (by simp)
    have h := report_exit (C34_refuted_general (cp := cp) h1 h2 hP hS hv (by rw [List.length_replicate]; omega))
    obtain ⟨pre, k, hk⟩ := report_split coef1 coef2 coefP S cp
    have hd : oe.diag = .exit 1 := by
      cases hE
      rfl
    rw [hk] at h ⊢
    cases pre with
    | ok x => rw [Res.ok_bind, hd]; rfl
    | throw e => cases h
    | exit c => exact h
    | ub => cases h
    | diverge => cases h
  · obtain ⟨m, e, hv⟩ := ofVec_vector E hne
    rw [hE] at e
    cases e
    split
    · rename_i hc
      rw [hc.2] at hv
      exact C99_report h1 h2 hP hS hv hc.1
    · rename_i hc
      exact report_exit (C34_refuted_general h1 h2 hP hS hv hc)

end

end Verif.Run
