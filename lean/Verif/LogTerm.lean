import Verif.TermLemmas
/-
Termination of reading a log file that need not be well formed.
-/
namespace Verif.Readers
open Strings Log

variable {α : Type} [Mul α] [Num α] [Zero α]

/-- `Ends` for a computation whose steps are counted down. -/
theorem Ends.step {β : Type} {f g : Nat → Res β} (h : ∀ fuel, f (fuel + 1) = g fuel) : (∃ o, Ends g o) → ∃ o, Ends f o :=
  fun ⟨o, ho⟩ => ⟨o, ho.succ h⟩

/-- An end with a postcondition on a normal outcome. -/
def EndsWith {β : Type} (f : Nat → Res β) (P : β → Prop) : Prop := ∃ out, Ends f out ∧ ∀ a, out = .ok a → P a

theorem EndsWith.now {β : Type} {f : Nat → Res β} {P : β → Prop} (x : Res β) (hx : Halts x) (h : ∀ fuel, f (fuel + 1) = x)
    (hP : ∀ a, x = .ok a → P a) : EndsWith f P :=
  ⟨x, Ends.of_le 1 hx h, hP⟩

theorem EndsWith.step {β : Type} {f g : Nat → Res β} {P : β → Prop} (h : ∀ fuel, f (fuel + 1) = g fuel) (hg : EndsWith g P) :
    EndsWith f P := by
  obtain ⟨o, ho, hp⟩ := hg
  exact ⟨o, ho.succ h, hp⟩

theorem EndsWith.bind {β γ : Type} {f : Nat → Res β} {g : Nat → β → Res γ} {P : β → Prop} {Q : γ → Prop} (hf : EndsWith f P)
    (hg : ∀ a, P a → EndsWith (fun n => g n a) Q) : EndsWith (fun n => f n >>= g n) Q := by
  obtain ⟨out, ⟨h0, N, hN⟩, hP⟩ := hf
  cases out with
  | ok a =>
    obtain ⟨o, ho, hq⟩ := hg a (hP a rfl)
    exact ⟨o, Ends.bind ⟨h0, N, hN⟩ ho, hq⟩
  | diverge => exact absurd rfl h0
  | throw e => exact ⟨.throw e, ⟨by simp, N, fun n hn => by simp only [hN n hn]; rfl⟩, by simp⟩
  | exit c => exact ⟨.exit c, ⟨by simp, N, fun n hn => by simp only [hN n hn]; rfl⟩, by simp⟩
  | ub => exact ⟨.ub, ⟨by simp, N, fun n hn => by simp only [hN n hn]; rfl⟩, by simp⟩

/-- A step that does not depend on the number of steps allowed. -/
theorem EndsWith.const {β : Type} {P : β → Prop} (x : Res β) (hx : Halts x) (hP : ∀ a, x = .ok a → P a) : EndsWith (fun _ => x) P :=
  ⟨x, ⟨hx, 0, fun _ _ => rfl⟩, hP⟩

theorem EndsWith.bindConst {β γ : Type} {x : Res β} {g : Nat → β → Res γ} {Q : γ → Prop} (hx : Halts x)
    (hg : ∀ a, x = .ok a → EndsWith (fun n => g n a) Q) : EndsWith (fun n => x >>= g n) Q :=
  EndsWith.bind (P := fun a => x = .ok a) (EndsWith.const x hx (fun _ h => h)) hg

theorem EndsWith.mono {β : Type} {f : Nat → Res β} {P Q : β → Prop} (h : EndsWith f P) (hpq : ∀ a, P a → Q a) : EndsWith f Q := by
  obtain ⟨o, ho, hp⟩ := h
  exact ⟨o, ho, fun a ha => hpq a (hp a ha)⟩

/-! ### coordinates -/

/-- The rest of one pass of the loop, after the test. -/
theorem coordLoop_stops {ls : List Str} (hl : ∀ l ∈ ls, IsLine l) (line : Str) (fid : Stream) (h : AtLine ls line fid)
    (X Y Z : List α) : EndsWith (fun n => coordLoop n fid line X Y Z) (fun r => ∃ line', AtLine ls line' r.1) := by
  have dead : ∀ (fid : Stream) (X Y Z : List α), EndsWith (fun n => coordLoop n fid [] X Y Z) (fun r => ∃ line', AtLine ls line' r.1) := by
    intro fid X Y Z
    refine EndsWith.now (.throw .outOfRange) (.throw _) (fun fuel => ?_) (by simp)
    rw [coordLoop, if_neg (by decide)]
    rfl
  have key : ∀ k (ls' : List Str) (line : Str) (X Y Z : List α), ls'.length ≤ k → ls' <:+ ls →
      EndsWith (fun n => coordLoop n (openText (unlines ls')) line X Y Z) (fun r => ∃ line', AtLine ls line' r.1) := by
    intro k
    induction k with
    | zero =>
      intro ls' line X Y Z hk hs
      have : ls' = [] := List.eq_nil_of_length_eq_zero (by omega)
      subst this
      by_cases hc : foundSubStrInStr line coordEnd = true
      · refine EndsWith.now (.ok (openText (unlines []), X, Y, Z)) (.ok _) (fun fuel => ?_) ?_
        · rw [coordLoop, if_pos hc]
        · intro a ha; injection ha with ha; subst ha; exact ⟨[], .inl ⟨[], hs, rfl⟩⟩
      · refine EndsWith.step (g := fun n => _) (fun fuel => by rw [coordLoop, if_neg hc]) ?_
        refine EndsWith.bindConst (vecAt_halts _ _) fun x _ => EndsWith.bindConst (stod_halts _) fun x _ =>
          EndsWith.bindConst (vecAt_halts _ _) fun y _ => EndsWith.bindConst (stod_halts _) fun y _ =>
          EndsWith.bindConst (vecAt_halts _ _) fun z _ => EndsWith.bindConst (stod_halts _) fun z _ => ?_
        exact dead _ _ _ _
    | succ k ih =>
      intro ls' line X Y Z hk hs
      by_cases hc : foundSubStrInStr line coordEnd = true
      · refine EndsWith.now (.ok (openText (unlines ls'), X, Y, Z)) (.ok _) (fun fuel => ?_) ?_
        · rw [coordLoop, if_pos hc]
        · intro a ha; injection ha with ha; subst ha; exact ⟨[], .inl ⟨ls', hs, rfl⟩⟩
      · refine EndsWith.step (g := fun n => _) (fun fuel => by rw [coordLoop, if_neg hc]) ?_
        refine EndsWith.bindConst (vecAt_halts _ _) fun x _ => EndsWith.bindConst (stod_halts _) fun x _ =>
          EndsWith.bindConst (vecAt_halts _ _) fun y _ => EndsWith.bindConst (stod_halts _) fun y _ =>
          EndsWith.bindConst (vecAt_halts _ _) fun z _ => EndsWith.bindConst (stod_halts _) fun z _ => ?_
        rcases getline_at hl ls' hs line with ⟨rfl, e⟩ | ⟨l, r, rfl, e⟩
        · rw [e]; exact dead _ _ _ _
        · rw [e]; exact ih r l _ _ _ (by simp at hk; omega) ((List.suffix_cons _ _).trans hs)
  rcases h with ⟨ls', hs, rfl⟩ | ⟨-, rfl⟩
  · exact key ls'.length ls' line X Y Z (Nat.le_refl _) hs
  · exact dead _ _ _ _

theorem coordReader_stops {ls : List Str} (hl : ∀ l ∈ ls, IsLine l) (pos : Option Str) (data : LogData α) :
    Stops (fun n => coordReader n ⟨openText (unlines ls), pos, data⟩) ls := by
  have h0 : AtLine ls [] (openText (unlines ls)) := .inl ⟨ls, List.suffix_refl _, rfl⟩
  have h3 := ((h0.getline hl).getline hl).getline hl
  have := EndsWith.bind (coordLoop_stops hl _ _ h3 ([] : List α) [] []) (g := fun _ (r : Stream × List α × List α × List α) =>
      Res.ok ({ fid := r.1, pos := pos, data := { data with xyz := [r.2.1, r.2.2.1, r.2.2.2] } } : FR (LogData α)))
    (Q := fun r => (r.fid.eof = true ∨ r.fid.fail = true) ∨ ∃ ls', ls' <:+ ls ∧ r.fid = openText (unlines ls'))
    (fun a ⟨line', ha⟩ => EndsWith.const _ (.ok _) (fun b hb => by injection hb with hb; subst hb; exact ha.stops))
  exact this

/-! ### overlaps -/

theorem overlapFirst_stops {ls : List Str} (hl : ∀ l ∈ ls, IsLine l) (line : Str) (fid : Stream) (h : AtLine ls line fid)
    (cC : Str) (cnt : Int) (acc : List (List α)) :
    EndsWith (fun n => overlapFirst n fid line cC cnt acc) (fun r => AtLine ls r.2.1 r.1) := by
  -- one pass, given that the next one ends
  have pass : ∀ (fid : Stream) (line cC : Str) (cnt : Int) (acc : List (List α)),
      AtLine ls (getline fid line).1 (getline fid line).2 →
      (∀ (cC' : Str) (acc' : List (List α)), stoi cC' = .ok (cnt + 1) → (cC' = cC ∨ (splitSt (getline fid line).1).head? = some cC') →
        EndsWith (fun n => overlapFirst n (getline fid line).2 (getline fid line).1 cC' (cnt + 1) acc')
          (fun r => AtLine ls r.2.1 r.1)) →
      EndsWith (fun n => overlapFirst n fid line cC cnt acc) (fun r => AtLine ls r.2.1 r.1) := by
    intro fid line cC cnt acc hat hnext
    refine EndsWith.step (g := fun n => _) (fun fuel => by rw [overlapFirst]) ?_
    simp only []
    refine EndsWith.bindConst (stoi_halts _) fun i hi => ?_
    by_cases hc : i ≠ cnt + 1
    · simp only [if_pos hc]
      refine EndsWith.const _ (.ok _) ?_
      intro a ha; injection ha with ha; subst ha; exact hat
    · simp only [if_neg hc]
      have hi' : i = cnt + 1 := by simpa using hc
      subst hi'
      refine EndsWith.bindConst (restOf_halts (pushBack_halts fortran_halts) _ ((sane_open _).extract _) _) fun row _ => ?_
      refine hnext _ _ hi ?_
      rw [extract_first]
      cases hs : splitSt (getline fid line).1 with
      | nil => exact .inl rfl
      | cons w ws => exact .inr rfl
  have dead : ∀ (fid : Stream) (cC : Str) (cnt : Int) (acc : List (List α)), fid.fail = true →
      EndsWith (fun n => overlapFirst n fid [] cC cnt acc) (fun r => AtLine ls r.2.1 r.1) := by
    intro fid cC cnt acc hf
    have e : getline fid [] = ([], { fid with fail := true }) := getline_bad (.inr hf) _
    refine pass fid [] cC cnt acc (by rw [e]; exact .inr ⟨rfl, rfl⟩) ?_
    intro cC' acc' h1 h2
    rw [e] at h2 ⊢
    have hcc : cC' = cC := by
      rcases h2 with h2 | h2
      · exact h2
      · cases h2
    have e2 : getline { fid with fail := true } [] = ([], { fid with fail := true }) := getline_bad (.inr rfl) _
    refine pass _ [] cC' (cnt + 1) acc' (by rw [e2]; exact .inr ⟨rfl, rfl⟩) ?_
    intro cC'' acc'' h3 h4
    exfalso
    rw [e2] at h4
    have : cC'' = cC' := by
      rcases h4 with h4 | h4
      · exact h4
      · cases h4
    rw [this, h1] at h3
    injection h3 with h3
    omega
  have key : ∀ k (ls' : List Str) (line cC : Str) (cnt : Int) (acc : List (List α)), ls'.length ≤ k → ls' <:+ ls →
      EndsWith (fun n => overlapFirst n (openText (unlines ls')) line cC cnt acc) (fun r => AtLine ls r.2.1 r.1) := by
    intro k
    induction k with
    | zero =>
      intro ls' line cC cnt acc hk hs
      have : ls' = [] := List.eq_nil_of_length_eq_zero (by omega)
      subst this
      have e : getline (openText (unlines [])) line = ([], ⟨[], true, true⟩) := rfl
      refine pass _ line cC cnt acc (by rw [e]; exact .inr ⟨rfl, rfl⟩) ?_
      intro cC' acc' _ _
      rw [e]; exact dead _ _ _ _ rfl
    | succ k ih =>
      intro ls' line cC cnt acc hk hs
      rcases getline_at hl ls' hs line with ⟨rfl, e⟩ | ⟨l, r, rfl, e⟩
      · refine pass _ line cC cnt acc (by rw [e]; exact .inr ⟨rfl, rfl⟩) ?_
        intro cC' acc' _ _
        rw [e]; exact dead _ _ _ _ rfl
      · have hsr := (List.suffix_cons l r).trans hs
        refine pass _ line cC cnt acc (by rw [e]; exact .inl ⟨r, hsr, rfl⟩) ?_
        intro cC' acc' _ _
        rw [e]; exact ih r l _ _ _ (by simp at hk; omega) hsr
  rcases h with ⟨ls', hs, rfl⟩ | ⟨hf, rfl⟩
  · exact key ls'.length ls' line cC cnt acc (Nat.le_refl _) hs
  · exact dead _ _ _ _ hf

theorem overlapSetRow_halts (rowInd colInd : Int) (row : List α) (m : Mat α) : Halts (overlapSetRow rowInd colInd row m) := by
  induction row generalizing colInd m with
  | nil => exact .ok _
  | cons v row ih =>
    rw [overlapSetRow]
    refine (setElem2_halts _ _ _ _).bind fun m1 _ => ?_
    by_cases h : rowInd + 1 ≠ colInd
    · rw [if_pos h]; exact (setElem2_halts _ _ _ _).bind fun m1 _ => ih _ _
    · rw [if_neg h]; exact ih _ _

theorem overlapSetRows_halts (rowInd : Int) (rows : List (List α)) (m : Mat α) : Halts (overlapSetRows rowInd rows m) := by
  induction rows generalizing rowInd m with
  | nil => exact .ok _
  | cons row rows ih => rw [overlapSetRows]; exact (overlapSetRow_halts _ _ _ _).bind fun m1 _ => ih _ _

theorem overlapCoef_halts (start sc : Int) (st : Mat α × Int) (s : Str) : Halts (overlapCoef start sc st s) := by
  unfold overlapCoef
  refine (fortran_halts _).bind fun v _ => (setElem2_halts _ _ _ _).bind fun m _ => ?_
  by_cases h : sc + 1 ≠ start + st.2
  · rw [if_pos h]; exact (setElem2_halts _ _ _ _).bind fun m1 _ => .ok _
  · rw [if_neg h]; exact .ok _

theorem overlapBlock_halts {ls : List Str} (hl : ∀ l ∈ ls, IsLine l) (start : Int) (n : Nat) (sc : Int) (fid : Stream) (line : Str)
    (m : Mat α) (h : AtLine ls line fid) : Halts (overlapBlock start n sc fid line m) ∧
      ∀ r, overlapBlock start n sc fid line m = .ok r → AtLine ls r.2.1 r.1 := by
  induction n generalizing sc fid line m with
  | zero => exact ⟨.ok _, fun r hr => by injection hr with hr; subst hr; exact h⟩
  | succ n ih =>
    have hat := h.getline hl
    rw [overlapBlock]
    have hr := restOf_halts (overlapCoef_halts start sc) (extract (openText (getline fid line).1) []).2 ((sane_open _).extract _) (m, 1)
    simp only []
    constructor
    · exact hr.bind fun a _ => (ih _ _ _ _ hat).1
    · intro r hrr
      rw [Res.bind_eq_ok] at hrr
      obtain ⟨a, -, ha⟩ := hrr
      exact (ih _ _ _ _ hat).2 r ha

theorem overlapBlocks_halts {ls : List Str} (hl : ∀ l ∈ ls, IsLine l) (cnt : Int) (n : Nat) (start : Int) (fid : Stream) (line : Str)
    (m : Mat α) (h : AtLine ls line fid) : Halts (overlapBlocks cnt n start fid line m) ∧
      ∀ r, overlapBlocks cnt n start fid line m = .ok r → ∃ line', AtLine ls line' r.1 := by
  induction n generalizing start fid line m with
  | zero => exact ⟨.ok _, fun r hr => by injection hr with hr; subst hr; exact ⟨line, h⟩⟩
  | succ n ih =>
    rw [overlapBlocks]
    obtain ⟨b1, b2⟩ := overlapBlock_halts hl start (cnt - start).toNat start fid line m h
    constructor
    · exact b1.bind fun a ha => (ih _ _ _ _ ((b2 a ha).getline hl)).1
    · intro r hr
      rw [Res.bind_eq_ok] at hr
      obtain ⟨a, ha, hr⟩ := hr
      exact (ih _ _ _ _ ((b2 a ha).getline hl)).2 r hr

theorem overlapReader_stops {ls : List Str} (hl : ∀ l ∈ ls, IsLine l) (pos : Option Str) (data : LogData α) :
    Stops (fun n => overlapReader n ⟨openText (unlines ls), pos, data⟩) ls := by
  have h0 : AtLine ls [] (openText (unlines ls)) := .inl ⟨ls, List.suffix_refl _, rfl⟩
  have h1 := overlapFirst_stops (α := α) hl _ _ (h0.getline hl) [] 0 []
  refine EndsWith.bind h1 (g := fun _ r => _) (Q := fun (r : FR (LogData α)) => (r.fid.eof = true ∨ r.fid.fail = true) ∨
    ∃ ls', ls' <:+ ls ∧ r.fid = openText (unlines ls')) ?_
  rintro ⟨fid, line, cnt, rows⟩ hat
  simp only [] at hat ⊢
  refine EndsWith.bindConst (mk2_halts _ _) fun m _ => EndsWith.bindConst (overlapSetRows_halts _ _ _) fun m _ => ?_
  obtain ⟨b1, b2⟩ := overlapBlocks_halts hl cnt ((cnt.tdiv 5 + (if cnt.tmod 5 > 0 then 1 else 0)) - 1).toNat 5 fid line m hat
  refine EndsWith.bindConst b1 fun r hr => ?_
  obtain ⟨line', hl'⟩ := b2 r hr
  refine EndsWith.const _ (.ok _) ?_
  intro a ha; injection ha with ha; subst ha; exact hl'.stops

/-! ### energies -/

/-- Where the energy loop may leave the reader. -/
def EnergyExit (ls : List Str) (r : FR (LogData α)) : Prop :=
  (r.fid.fail = true ∨ ∃ ls', ls' <:+ ls ∧ r.fid = openText (unlines ls')) ∧ ∃ p, p <:+ ls ∧ r.pos = some (unlines p)

theorem energiesLoop_stops {ls : List Str} (hl : ∀ l ∈ ls, IsLine l) (orbType : Str) (ls' p : List Str) (hs : ls' <:+ ls) (hp : p <:+ ls)
    (line : Str) (data : LogData α) :
    EndsWith (fun n => energiesLoop orbType n ⟨openText (unlines ls'), some (unlines p), data⟩ line) (EnergyExit ls) := by
  induction ls' generalizing p line data with
  | nil =>
    refine EndsWith.now _ (.ok (⟨⟨[], true, true⟩, some (unlines p), data⟩ : FR (LogData α))) (fun fuel => ?_) ?_
    · rw [energiesLoop]; rfl
    · intro a ha; injection ha with ha; subst ha
      exact ⟨.inl rfl, p, hp, rfl⟩
  | cons l r ih =>
    have hsr := (List.suffix_cons l r).trans hs
    have e : getline (openText (unlines (l :: r))) line = (l, openText (unlines r)) := by
      rw [unlines_cons, getline_line (hl l (hs.subset (by simp)))]
    by_cases hf : (foundSubStrInStr l ((lit " ") ++ orbType ++ (lit "  occ. eigenvalues -- ")) ||
        foundSubStrInStr l ((lit " ") ++ orbType ++ (lit " virt. eigenvalues -- "))) = true
    · refine EndsWith.step (g := fun n => splitStEnergies l >>= fun v => energiesLoop orbType n ⟨openText (unlines r), some (unlines r),
          pushEnergies orbType (foundSubStrInStr l ((lit " ") ++ orbType ++ (lit "  occ. eigenvalues -- "))) (v.drop 4) data⟩ l)
        (fun fuel => ?_) ?_
      · rw [energiesLoop]
        simp only [e]
        rw [if_neg (by simp [openText]), if_pos hf]
        rfl
      · exact EndsWith.bindConst (splitStEnergies_halts _) fun v _ => ih r hsr hsr _ _
    · refine EndsWith.now _ (.ok (⟨openText (unlines r), some (unlines p), data⟩ : FR (LogData α))) (fun fuel => ?_) ?_
      · rw [energiesLoop]
        simp only [e]
        rw [if_neg (by simp [openText]), if_neg hf]
      · intro a ha; injection ha with ha; subst ha
        exact ⟨.inr ⟨r, hsr, rfl⟩, p, hp, rfl⟩

/-- Reading energies ends, and passes the announcing line if that line looks like a line of energies. -/
theorem readOrbEnergies_stops {l : Str} {ls : List Str} (hline : IsLine l) (hl : ∀ l ∈ ls, IsLine l) (orbType : Str)
    (hf : Contains l ((lit " ") ++ orbType ++ (lit "  occ. eigenvalues -- "))) (data : LogData α) :
    Stops (fun n => readOrbEnergies orbType n ⟨openText (unlines (l :: ls)), some (unlines (l :: ls)), data⟩) ls := by
  have e : ∀ p, getline (openText (unlines (l :: ls))) p = (l, openText (unlines ls)) := by
    intro p; rw [unlines_cons, getline_line hline]
  have hfound := found_contains.2 hf
  have h1 : EndsWith (fun n => energiesLoop orbType n ⟨openText (unlines (l :: ls)), some (unlines (l :: ls)),
      { data with homo := data.homo.set orbType 0, oe := data.oe.set orbType [] }⟩ []) (EnergyExit ls) := by
    refine EndsWith.step (g := fun n => splitStEnergies l >>= fun v => energiesLoop orbType n ⟨openText (unlines ls), some (unlines ls),
          pushEnergies orbType true (v.drop 4) { data with homo := data.homo.set orbType 0, oe := data.oe.set orbType [] }⟩ l)
        (fun fuel => ?_) ?_
    · rw [energiesLoop]
      simp only [e, hfound]
      rw [if_neg (by simp [openText]), if_pos (by simp)]
      rfl
    · exact EndsWith.bindConst (splitStEnergies_halts _) fun v _ =>
        energiesLoop_stops hl orbType ls ls (List.suffix_refl _) (List.suffix_refl _) _ _
  refine EndsWith.bind h1 (g := fun _ r => Res.ok ({ r with fid := seekg r.fid r.pos } : FR (LogData α)))
    (Q := fun (r : FR (LogData α)) => (r.fid.eof = true ∨ r.fid.fail = true) ∨ ∃ ls', ls' <:+ ls ∧ r.fid = openText (unlines ls')) ?_
  rintro ⟨fid, pos, d⟩ ⟨hfid, p, hp, hpos⟩
  refine EndsWith.const _ (.ok _) ?_
  intro a ha; injection ha with ha; subst ha
  simp only [] at hpos hfid ⊢
  subst hpos
  rcases hfid with hfid | ⟨ls', hs, rfl⟩
  · left; right; simp [seekg, hfid]
  · right; exact ⟨p, hp, by simp [seekg, openText]⟩

/-! ### populations -/

theorem end_found {e : Str} (h : PopulationEnd e) : foundSubStrInStr e aoEnd = true := by
  obtain ⟨-, more, rfl⟩ := h
  exact found_contains.2 ⟨[], more, rfl⟩

theorem end_element {e : Str} (h : PopulationEnd e) : ∃ a b, vecAt e 9 = .ok a ∧ vecAt e 10 = .ok b ∧ isAlphabetical (trimmed [a, b]) = true := by
  obtain ⟨-, more, rfl⟩ := h
  exact ⟨'C', 'o', rfl, rfl, by decide⟩

/-- Where the loop over the functions of an atom may leave the reader. -/
def RowsExit (ls' : List Str) (x : FR (LogData α) × Str × Bool) : Prop :=
  ∃ ls'', ls'' <:+ ls' ∧ x.1.fid = openText (unlines ls'') ∧
    (x.2.2 = true ∨ foundSubStrInStr x.2.1 aoEnd = true ∨ ∃ e ∈ ls'', PopulationEnd e)

theorem aoRows_stops (atom : Int) (elem : Str) {ls : List Str} (hl : ∀ l ∈ ls, IsLine l) (ls' : List Str) (hs : ls' <:+ ls)
    (pos : Option Str) (data : LogData α) (line e2 ot : Str)
    (h : (isAlphabetical e2 = true ∧ foundSubStrInStr line aoEnd = true) ∨ ∃ e ∈ ls', PopulationEnd e) :
    EndsWith (fun n => aoRows atom elem n ⟨openText (unlines ls'), pos, data⟩ line e2 ot) (RowsExit ls') := by
  induction ls' generalizing data line e2 ot with
  | nil =>
    rcases h with ⟨h1, h2⟩ | ⟨e, he, -⟩
    · refine EndsWith.now _ (.ok ((⟨openText (unlines []), pos, data⟩ : FR (LogData α)), line, false)) (fun fuel => ?_) ?_
      · rw [aoRows, if_pos h1]
      · intro a ha; injection ha with ha; subst ha
        exact ⟨[], List.suffix_refl _, rfl, .inr (.inl h2)⟩
    · cases he
  | cons l r ih =>
    have hsr := (List.suffix_cons l r).trans hs
    have e : getline (openText (unlines (l :: r))) line = (l, openText (unlines r)) := by
      rw [unlines_cons, getline_line (hl l (hs.subset (by simp)))]
    by_cases ha : isAlphabetical e2 = true
    · refine EndsWith.now _ (.ok ((⟨openText (unlines (l :: r)), pos, data⟩ : FR (LogData α)), line, false)) (fun fuel => ?_) ?_
      · rw [aoRows, if_pos ha]
      · intro a hx; injection hx with hx; subst hx
        refine ⟨l :: r, List.suffix_refl _, rfl, ?_⟩
        rcases h with h | h
        · exact .inr (.inl h.2)
        · exact .inr (.inr h)
    · have hex : ∃ e ∈ l :: r, PopulationEnd e := by
        rcases h with h | h
        · exact absurd h.1 ha
        · exact h
      refine EndsWith.step (g := fun n => _) (fun fuel => by rw [aoRows, if_neg ha]) ?_
      simp only [e]
      refine EndsWith.bindConst (restOf_halts (pushBack_halts stod_halts) _ (((sane_open _).extract _).extract _) _) fun row _ => ?_
      by_cases hc : foundSubStrInStr l aoEnd = true
      · simp only [hc, if_true]
        refine EndsWith.const _ (.ok _) ?_
        intro a hx; injection hx with hx; subst hx
        exact ⟨r, List.suffix_cons _ _, rfl, .inl rfl⟩
      · simp only [hc]
        have her : ∃ e ∈ r, PopulationEnd e := by
          obtain ⟨x, hx, hxe⟩ := hex
          rcases List.mem_cons.1 hx with rfl | hx
          · exact absurd (end_found hxe) hc
          · exact ⟨x, hx, hxe⟩
        refine (ih hsr _ _ _ _ (.inr her)).mono ?_
        rintro a ⟨ls'', h1, h2⟩
        exact ⟨ls'', h1.trans (List.suffix_cons _ _), h2⟩

theorem aoAtoms_stops {ls : List Str} (hl : ∀ l ∈ ls, IsLine l) (pos : Option Str) (k : Nat) (ls' : List Str) (hk : ls'.length ≤ k)
    (hs : ls' <:+ ls) (hex : ∃ e ∈ ls', PopulationEnd e) (atom : Int) (data : LogData α) (line : Str) :
    EndsWith (fun n => aoAtoms n atom ⟨openText (unlines ls'), pos, data⟩ line)
      (fun r => ∃ ls'', ls'' <:+ ls ∧ r.fid = openText (unlines ls'')) := by
  induction k generalizing ls' atom data line pos with
  | zero =>
    have : ls' = [] := List.eq_nil_of_length_eq_zero (by omega)
    subst this
    obtain ⟨e, he, -⟩ := hex
    cases he
  | succ k ih =>
    cases ls' with
    | nil => obtain ⟨e, he, -⟩ := hex; cases he
    | cons l r =>
      have hsr := (List.suffix_cons l r).trans hs
      have e : getline (openText (unlines (l :: r))) line = (l, openText (unlines r)) := by
        rw [unlines_cons, getline_line (hl l (hs.subset (by simp)))]
      refine EndsWith.step (g := fun n => _) (fun fuel => by rw [aoAtoms]) ?_
      simp only [e]
      refine EndsWith.bindConst (restOf_halts (pushBack_halts stod_halts) _
        (((((sane_open _).extract _).extract _).extract _).extract _) _) fun row _ => ?_
      refine EndsWith.bindConst (vecAt_halts _ _) fun c9 h9 => EndsWith.bindConst (vecAt_halts _ _) fun c10 h10 => ?_
      have hpre : (isAlphabetical (trimmed [c9, c10]) = true ∧ foundSubStrInStr l aoEnd = true) ∨ ∃ e ∈ r, PopulationEnd e := by
        obtain ⟨x, hx, hxe⟩ := hex
        rcases List.mem_cons.1 hx with rfl | hx
        · obtain ⟨a, b, e1, e2, e3⟩ := end_element hxe
          rw [h9] at e1; rw [h10] at e2
          injection e1 with e1; injection e2 with e2
          subst e1; subst e2
          exact .inl ⟨e3, end_found hxe⟩
        · exact .inr ⟨x, hx, hxe⟩
      refine EndsWith.bind (aoRows_stops atom _ hl r hsr pos _ l _ _ hpre) ?_
      rintro ⟨⟨fid, pos', d⟩, line', b⟩ ⟨ls'', hs'', hfid, hend⟩
      simp only [] at hfid hend ⊢
      subst hfid
      have done : EndsWith (fun _ => (Res.ok ⟨openText (unlines ls''), pos', d⟩ : Res (FR (LogData α))))
          (fun r => ∃ ls'', ls'' <:+ ls ∧ r.fid = openText (unlines ls'')) := by
        refine EndsWith.const _ (.ok _) ?_
        intro a hx; injection hx with hx; subst hx
        exact ⟨ls'', hs''.trans hsr, rfl⟩
      by_cases hc : foundSubStrInStr line' aoEnd = true
      · simp only [hc, if_true]
        exact done
      · simp only [hc]
        cases b with
        | true => exact done
        | false =>
          have hex'' : ∃ e ∈ ls'', PopulationEnd e := by
            rcases hend with h | h | h
            · cases h
            · exact absurd h hc
            · exact h
          have hlen := hs''.length_le
          simp only [List.length_cons] at hk
          exact ih pos' ls'' (by omega) (hs''.trans hsr) hex'' _ _ _

theorem aoReader_stops {ls : List Str} (hl : ∀ l ∈ ls, IsLine l) (hex : ∃ e ∈ ls.drop 2, PopulationEnd e) (pos : Option Str)
    (data : LogData α) : Stops (fun n => aoReader n ⟨openText (unlines ls), pos, data⟩) ls := by
  obtain ⟨e, he, hend⟩ := hex
  match ls, he with
  | a :: b :: r, he =>
    have e1 : ∀ p, getline (openText (unlines (a :: b :: r))) p = (a, openText (unlines (b :: r))) := by
      intro p; rw [unlines_cons, getline_line (hl a (by simp))]
    have e2 : ∀ p, getline (openText (unlines (b :: r))) p = (b, openText (unlines r)) := by
      intro p; rw [unlines_cons, getline_line (hl b (by simp))]
    have hs : r <:+ a :: b :: r := (List.suffix_cons b r).trans (List.suffix_cons a _)
    have := aoAtoms_stops hl pos r.length r (Nat.le_refl _) hs ⟨e, he, hend⟩ 1 data b
    have h2 : (fun n => aoReader n ⟨openText (unlines (a :: b :: r)), pos, data⟩) =
        (fun n => aoAtoms n 1 ⟨openText (unlines r), pos, data⟩ b) := by
      funext n
      unfold aoReader
      simp only [e1, e2]
    rw [h2]
    exact this.mono (fun r h => .inr h)

/-! ### any log file -/

theorem guards_suffix {a b : List Str} (h : a <:+ b) (hb : LogGuards b) : LogGuards a := by
  obtain ⟨pre, rfl⟩ := h
  refine ⟨fun l hl => hb.1 l (by simp [hl]), fun before l after e => hb.2 (pre ++ before) l after (by rw [e]; simp)⟩

theorem log_start_cases {l tag : Str} (h : startSection (logSections (α := α)).headers l = tag) (hne : tag ≠ []) :
    (tag = (lit "AOFunction") ∧ Contains l (lit "     Gross orbital populations:")) ∨ tag = (lit "Coord") ∨
    (tag = (lit "OEAlpha") ∧ Contains l (lit " Alpha  occ. eigenvalues --")) ∨
    (tag = (lit "OEBeta") ∧ Contains l (lit "  Beta  occ. eigenvalues --")) ∨ tag = (lit "Overlap") := by
  rw [headers_eq] at h
  unfold startSection at h
  split at h
  · rename_i th hth
    subst h
    have hm := List.mem_of_find?_eq_some hth
    have hp := List.find?_some hth
    simp only [logHeaders, List.mem_cons, List.not_mem_nil, or_false] at hm
    rcases hm with rfl | rfl | rfl | rfl | rfl
    · left; exact ⟨rfl, by simpa [found_contains] using hp⟩
    · right; left; rfl
    · right; right; left; exact ⟨rfl, by simpa [found_contains] using hp⟩
    · right; right; right; left; exact ⟨rfl, by simpa [found_contains] using hp⟩
    · right; right; right; right; rfl
  · exact absurd h.symm hne

theorem log_stops (ls : List Str) (hl : ∀ l ∈ ls, IsLine l) (hg : LogGuards ls) (d : LogData α) :
    ∃ out, Ends (runFrom logSections (unlines ls) d) out := by
  refine run_stops logSections LogGuards (fun a b h hb => guards_suffix h hb) ?_ ls hl hg d
  intro l ls tag f hline hg htag hne hf hls data
  rcases log_start_cases (α := α) htag hne with ⟨rfl, h⟩ | rfl | ⟨rfl, h⟩ | ⟨rfl, h⟩ | rfl
  · have : f = aoReader := by
      have e : (logSections (α := α)).readers.get (lit "AOFunction") = some aoReader := rfl
      rw [e] at hf; injection hf with hf; exact hf.symm
    subst this
    exact aoReader_stops hls (hg.2 [] l ls rfl h) _ _
  · have : f = coordReader := by
      have e : (logSections (α := α)).readers.get (lit "Coord") = some coordReader := rfl
      rw [e] at hf; injection hf with hf; exact hf.symm
    subst this
    exact coordReader_stops hls _ _
  · have : f = alphaReader := by
      have e : (logSections (α := α)).readers.get (lit "OEAlpha") = some alphaReader := rfl
      rw [e] at hf; injection hf with hf; exact hf.symm
    subst this
    exact readOrbEnergies_stops hline hls (lit "Alpha") (hg.1 l (by simp) .alpha h) data
  · have : f = betaReader := by
      have e : (logSections (α := α)).readers.get (lit "OEBeta") = some betaReader := rfl
      rw [e] at hf; injection hf with hf; exact hf.symm
    subst this
    refine readOrbEnergies_stops hline hls (lit "Beta") (hg.1 l (by simp) .beta ?_) data
    obtain ⟨x, y, rfl⟩ := h
    exact ⟨x ++ [' '], y, by simp [Spin.name]⟩
  · have : f = overlapReader := by
      have e : (logSections (α := α)).readers.get (lit "Overlap") = some overlapReader := rfl
      rw [e] at hf; injection hf with hf; exact hf.symm
    subst this
    exact overlapReader_stops hls _ _

end Verif.Readers
