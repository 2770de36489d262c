import Verif.IntsReadLemmas
import Verif.Props.IntsJob
/-
Property C133: below a stated size no `int` overflows while the files are read either.
-/
namespace Verif.Ints
open QC Readers Strings LogLines Args Run
variable {α β : Type}

theorem readLoop_inv {σ : Type} {s : Sections σ} (I : FR σ → Prop) (hget : ∀ r line, I r → I { r with fid := (getline r.fid line).2 })
    (htell : ∀ r, I r → I { r with fid := (tellg r.fid).2, pos := (tellg r.fid).1 })
    (hread : ∀ tag f, s.readers.get tag = some f → ∀ fuel r r', I r → f fuel r = .ok r' → I r') :
    ∀ fuel (r r' : FR σ) line, I r → readLoop s fuel r line = .ok r' → I r' := by
  intro fuel
  induction fuel with
  | zero => intro r r' line _ e; cases e
  | succ fuel ih =>
    intro r r' line hi e
    rw [readLoop] at e
    dsimp only at e
    have h1 := hget r line hi
    split at e
    · cases e; exact h1
    obtain ⟨x, ex, e⟩ : ∃ x, (if startSection s.headers (getline r.fid line).1 ≠ [] then
        readSection s fuel (startSection s.headers (getline r.fid line).1) { r with fid := (getline r.fid line).2 } else .ok { r with fid := (getline r.fid line).2 }) = .ok x ∧
        readLoop s fuel { x with fid := (tellg x.fid).2, pos := (tellg x.fid).1 } (getline r.fid line).1 = .ok r' := by
      split at e
      · rename_i ht
        rw [if_pos ht]
        exact Res.bind_eq_ok.1 e
      · rename_i ht
        rw [if_neg ht]
        exact ⟨_, rfl, e⟩
    refine ih _ _ _ (htell x ?_) e
    split at ex
    · unfold readSection at ex
      split at ex
      · rename_i f hf
        exact hread _ f hf _ _ _ h1 ex
      · cases ex
    · cases ex; exact h1

section
variable [Mul α] [Num α]

theorem modest_small {t : Str} (h : ModestPun α t) {files : Str → Option Str} {name : Str} (hf : files name = some t) {fuel : Nat} {d : PunData α}
    (e : Readers.readPun files fuel name = .ok d) : SmallPun d := by
  have hfit : AllFit t := allFit_of (by unfold Fits; have := h.size; omega)
  have hs := h.size
  obtain ⟨-, -, e⟩ := Res.bind_eq_ok.1 e
  unfold Readers.read at e
  rw [hf] at e
  obtain ⟨r, er, e⟩ := Res.bind_eq_ok.1 e
  cases e
  have step : ∀ (spin : Log.Spin) fuel (r r' : FR (PunData α)), (Within' t r ∧ ∀ k m, r.data.get k = some m → m.rows ≤ 46340 ∧ m.cols ≤ 46340) →
      Readers.readCoef spin.name fuel r = .ok r' → Within' t r' ∧ ∀ k m, r'.data.get k = some m → m.rows ≤ 46340 ∧ m.cols ≤ 46340 := by
    rintro spin fuel r r' ⟨hw, hd⟩ e
    refine ⟨(readCoef_same h spin (fuel + 1) fuel (by omega) r hw).2 r' e, ?_⟩
    obtain ⟨x, ex, e⟩ := Res.bind_eq_ok.1 e
    obtain ⟨m', em, e⟩ := Res.bind_eq_ok.1 e
    cases e
    obtain ⟨i, k, ht⟩ := coefLoop_tableAt hfit spin hw.1 ex
    obtain ⟨t1, t2⟩ := h.tables spin i k x.2 ht
    intro k m hk
    dsimp only at hk
    by_cases hks : k = spin.name
    · subst hks
      rw [Map.get_set_self] at hk
      cases hk
      obtain ⟨v, hv, hm⟩ := ofVecVec_dims em
      have := t2 v hv
      exact ⟨by rw [hm.1]; omega, by rw [hm.2.1]; omega⟩
    · rw [Map.get_set_ne _ hks] at hk
      exact hd k m hk
  have key := readLoop_inv (s := (Readers.punSections (α := α))) (fun r => Within' t r ∧ ∀ k m, r.data.get k = some m → m.rows ≤ 46340 ∧ m.cols ≤ 46340)
    (fun r line hr => ⟨⟨(hr.1.1.getline line).1, hr.1.2⟩, hr.2⟩) (fun r hr => ⟨⟨hr.1.1.tellg, hr.1.1.tellg_pos⟩, hr.2⟩)
    (fun tag f hf fuel r r' hr e => by
      unfold Readers.punSections at hf
      simp only [Map.get] at hf
      split at hf
      · cases hf; exact step .alpha _ _ _ hr e
      split at hf
      · cases hf; exact step .beta _ _ _ hr e
      · cases hf)
    fuel _ _ _ ⟨⟨inside_start t, fun p e => by cases e; exact inside_start t⟩, fun k m e => by cases e⟩ er
  refine ⟨fun spin m hm => ?_⟩
  unfold PunData.getCoefsMatrix at hm
  split at hm
  · rename_i m' hm'
    cases hm
    exact key.2 spin _ hm'
  · cases hm

/-- **C133 (pun files).** A pun file whose text is modest is read with checked `int`s as with unbounded ones, whatever comes of it; and what has been
read is small enough for the calculation. -/
theorem C133_pun (files : Str → Option Str) (name : Str) (modest : ∀ t, files name = some t → ModestPun α t) (fuel : Nat) :
    (Ints.readPun files fuel name : Res (PunData α)) = Readers.readPun files fuel name ∧
    ∀ d : PunData α, Readers.readPun files fuel name = .ok d → SmallPun d := by
  constructor
  · unfold Ints.readPun Readers.readPun
    refine bind_eq rfl fun _ _ => ?_
    unfold Readers.read
    cases hf : files name with
    | none => rfl
    | some t =>
      have hw : Within' t (⟨openText t, some t, []⟩ : FR (PunData α)) := ⟨inside_start t, fun p e => by cases e; exact inside_start t⟩
      exact bind_eq (readLoop_same (s := Ints.punSections) (s' := Readers.punSections) rfl (pun_same (modest t hf) fuel) fuel (Nat.le_refl _) _ _ hw) fun _ _ => rfl
  · intro d e
    cases hf : files name with
    | none =>
      obtain ⟨_, -, e⟩ := Res.bind_eq_ok.1 e
      unfold Readers.read at e
      rw [hf] at e
      cases e
    | some t => exact modest_small (modest t hf) hf e

variable [Zero α]

/-- **C133 (log files).** A log file whose text is modest is read with checked `int`s as with unbounded ones, whatever comes of it. (The number of
passes of a loop is limited to the number of `int`s; C112 says that three times the length of the text and six are enough.) -/
theorem C133_log (files : Str → Option Str) (name : Str) (modest : ∀ t, files name = some t → ModestLog t) (fuel : Nat) (hfuel : fuel < 2 ^ 31) :
    (Ints.readLog files fuel name : Res (LogData α)) = Readers.readLog files fuel name := by
  unfold Ints.readLog Readers.readLog
  refine bind_eq rfl fun _ _ => ?_
  unfold Readers.read
  cases hf : files name with
  | none => rfl
  | some t =>
    have hw : Within' t (⟨openText t, some t, LogData.empty⟩ : FR (LogData α)) := ⟨inside_start t, fun p e => by cases e; exact inside_start t⟩
    exact bind_eq (readLoop_same (s := Ints.logSections) (s' := Readers.logSections) (N := 2147483647) rfl (log_same (modest t hf)) fuel (by omega) _ _ hw) fun _ _ => rfl

end

/-! ### the limit -/

theorem set2_rows {n : Int} {m m' : Mat α} (h : m.rows = n) {v : α} {i j : Int} (e : Ints.setElem2 m v i j = .ok m') : m'.rows = n := by
  unfold Ints.setElem2 at e
  repeat' split at e
  all_goals first | cases e | skip
  obtain ⟨_, -, e⟩ := Res.bind_eq_ok.1 e
  obtain ⟨b, -, e⟩ := Res.bind_eq_ok.1 e
  cases e; exact h

theorem setRow_rows {n : Int} (rowInd : Int) : ∀ (row : List α) (col : Int) (m m' : Mat α), m.rows = n → Ints.overlapSetRow rowInd col row m = .ok m' → m'.rows = n := by
  intro row
  induction row with
  | nil => intro col m m' h e; cases e; exact h
  | cons v row ih =>
    intro col m m' h e
    rw [Ints.overlapSetRow] at e
    obtain ⟨i, -, e⟩ := Res.bind_eq_ok.1 e
    obtain ⟨j, -, e⟩ := Res.bind_eq_ok.1 e
    obtain ⟨m1, e1, e⟩ := Res.bind_eq_ok.1 e
    have h1 := set2_rows h e1
    dsimp only at e
    split at e
    · obtain ⟨m2, e2, e⟩ := Res.bind_eq_ok.1 e
      exact ih _ _ _ (set2_rows h1 e2) e
    · exact ih _ _ _ h1 e

theorem setRows_rows {n : Int} : ∀ (rows : List (List α)) (rowInd : Int) (m m' : Mat α), m.rows = n → Ints.overlapSetRows rowInd rows m = .ok m' → m'.rows = n := by
  intro rows
  induction rows with
  | nil => intro rowInd m m' h e; cases e; exact h
  | cons row rows ih =>
    intro rowInd m m' h e
    rw [Ints.overlapSetRows] at e
    obtain ⟨m1, e1, e⟩ := Res.bind_eq_ok.1 e
    exact ih _ _ _ (setRow_rows rowInd row 1 m m1 h e1) e

section
variable [Mul α] [Num α]

theorem coef_rows {n start sec : Int} {st a : Mat α × Int} {s : Str} (h : st.1.rows = n) (e : Ints.overlapCoef start sec st s = .ok a) : a.1.rows = n := by
  unfold Ints.overlapCoef at e
  obtain ⟨v, -, e⟩ := Res.bind_eq_ok.1 e
  obtain ⟨i, -, e⟩ := Res.bind_eq_ok.1 e
  obtain ⟨j, -, e⟩ := Res.bind_eq_ok.1 e
  obtain ⟨m1, e1, e⟩ := Res.bind_eq_ok.1 e
  have h1 := set2_rows h e1
  dsimp only at e
  split at e
  · obtain ⟨m2, e2, e⟩ := Res.bind_eq_ok.1 e
    obtain ⟨k, -, e⟩ := Res.bind_eq_ok.1 e
    cases e
    exact set2_rows h1 e2
  · obtain ⟨m2, e2, e⟩ := Res.bind_eq_ok.1 e
    obtain ⟨k, -, e⟩ := Res.bind_eq_ok.1 e
    cases e2
    cases e
    exact h1

theorem block_rows {n : Int} (start : Int) : ∀ (k : Nat) (sec : Int) (fid : Readers.Stream) (line : Str) (m : Mat α) x, m.rows = n →
    Ints.overlapBlock start k sec fid line m = .ok x → x.2.2.rows = n := by
  intro k
  induction k with
  | zero => intro sec fid line m x h e; cases e; exact h
  | succ k ih =>
    intro sec fid line m x h e
    rw [Ints.overlapBlock] at e
    dsimp only at e
    obtain ⟨a, ea, e⟩ := Res.bind_eq_ok.1 e
    obtain ⟨_, -, e⟩ := Res.bind_eq_ok.1 e
    refine ih _ _ _ _ _ ?_ e
    exact (restLoop_same (fun st : Mat α × Int => st.1.rows = n) (f := Ints.overlapCoef start sec) (fun st s hst => ⟨rfl, fun a ea => coef_rows hst ea⟩) _ _ _ h).2 a ea

theorem blocks_rows {n : Int} (c : Int) : ∀ (k : Nat) (sec start : Int) (fid : Readers.Stream) (line : Str) (m : Mat α) x, m.rows = n →
    Ints.overlapBlocks c k sec start fid line m = .ok x → x.2.rows = n := by
  intro k
  induction k with
  | zero => intro sec start fid line m x h e; cases e; exact h
  | succ k ih =>
    intro sec start fid line m x h e
    rw [Ints.overlapBlocks] at e
    obtain ⟨a, ea, e⟩ := Res.bind_eq_ok.1 e
    dsimp only at e
    obtain ⟨_, -, e⟩ := Res.bind_eq_ok.1 e
    obtain ⟨_, -, e⟩ := Res.bind_eq_ok.1 e
    exact ih _ _ _ _ _ _ (block_rows start _ _ _ _ _ _ h ea) e

variable [Zero α]

omit [Mul α] [Num α] in
theorem mk2_limit {n : Int} {m : Mat α} (e : Ints.mk2 n n = .ok m) : m.rows = n ∧ n ≤ 46340 := by
  have hn : n ≤ 46340 := by
    by_contra hbig
    have big : 2147483647 < n * n := by
      have : 46341 * 46341 ≤ n * n := Int.mul_le_mul (by omega) (by omega) (by omega) (by omega)
      omega
    rw [(C113_constructor (α := α) n n 1).2.2.1 (by omega) (by omega) big] at e
    cases e
  refine ⟨?_, hn⟩
  unfold Ints.mk2 at e
  repeat' split at e
  all_goals first | cases e | skip
  obtain ⟨_, -, e⟩ := Res.bind_eq_ok.1 e
  obtain ⟨b, -, e⟩ := Res.bind_eq_ok.1 e
  cases e; rfl

theorem pushEnergies_S (o : Str) (occ : Bool) : ∀ (v : List Str) (d d' : LogData α), Ints.pushEnergies o occ v d = .ok d' → d'.S = d.S := by
  intro v
  induction v with
  | nil => intro d d' e; cases e; rfl
  | cons s v ih =>
    intro d d' e
    rw [Ints.pushEnergies] at e
    dsimp only at e
    split at e
    · obtain ⟨_, -, e⟩ := Res.bind_eq_ok.1 e
      obtain ⟨_, -, e⟩ := Res.bind_eq_ok.1 e
      have := ih _ _ e
      exact this
    · have := ih _ _ e
      exact this

theorem energiesLoop_S (o : Str) : ∀ (fuel : Nat) (r r' : FR (LogData α)) (line : Str), Ints.energiesLoop o fuel r line = .ok r' → r'.data.S = r.data.S := by
  intro fuel
  induction fuel with
  | zero => intro r r' line e; cases e
  | succ fuel ih =>
    intro r r' line e
    rw [Ints.energiesLoop] at e
    dsimp only at e
    split at e
    · cases e; rfl
    split at e
    · obtain ⟨v, -, e⟩ := Res.bind_eq_ok.1 e
      obtain ⟨d, ed, e⟩ := Res.bind_eq_ok.1 e
      rw [ih _ _ _ e]
      exact pushEnergies_S _ _ _ _ _ ed
    · cases e; rfl

theorem readOrbEnergies_S (o : Str) (fuel : Nat) (r r' : FR (LogData α)) (e : Ints.readOrbEnergies o fuel r = .ok r') : r'.data.S = r.data.S := by
  obtain ⟨x, ex, e⟩ := Res.bind_eq_ok.1 e
  cases e
  have := energiesLoop_S o _ _ _ _ ex
  exact this

omit [Mul α] [Zero α] in
theorem aoRows_S (atom : Int) (elem : Str) : ∀ (fuel : Nat) (r : FR (LogData α)) (line e2 o : Str) x, aoRows atom elem fuel r line e2 o = .ok x → x.1.data.S = r.data.S := by
  intro fuel
  induction fuel with
  | zero => intro r line e2 o x e; cases e
  | succ fuel ih =>
    intro r line e2 o x e
    rw [Readers.aoRows] at e
    split at e
    · cases e; rfl
    obtain ⟨vals, -, e⟩ := Res.bind_eq_ok.1 e
    dsimp only at e
    split at e
    · cases e; rfl
    · have := ih _ _ _ _ x e
      exact this

theorem aoAtoms_S : ∀ (fuel : Nat) (atom : Int) (r r' : FR (LogData α)) (line : Str), Ints.aoAtoms fuel atom r line = .ok r' → r'.data.S = r.data.S := by
  intro fuel
  induction fuel with
  | zero => intro atom r r' line e; cases e
  | succ fuel ih =>
    intro atom r r' line e
    rw [Ints.aoAtoms] at e
    dsimp only at e
    obtain ⟨_, -, e⟩ := Res.bind_eq_ok.1 e
    obtain ⟨_, -, e⟩ := Res.bind_eq_ok.1 e
    obtain ⟨_, -, e⟩ := Res.bind_eq_ok.1 e
    obtain ⟨x, ex, e⟩ := Res.bind_eq_ok.1 e
    have hx := aoRows_S _ _ _ _ _ _ _ x ex
    obtain ⟨_, -, e⟩ := Res.bind_eq_ok.1 e
    generalize (if foundSubStrInStr x.2.1 aoEnd = true then true else x.2.2) = b at e
    cases b
    · exact (ih _ _ _ _ e).trans hx
    · cases e; exact hx

/-- **C133 (the limit).** The limit is sharp: with checked `int`s a log file is read to its end only if the overlap matrix has at most 46340 rows. -/
theorem C133_limit (files : Str → Option Str) (fuel : Nat) (name : Str) {d : LogData α} (h : Ints.readLog files fuel name = .ok d) {S : Mat α}
    (hS : d.getOverlapMatrix = .ok S) : S.rows ≤ 46340 := by
  obtain ⟨_, -, h⟩ := Res.bind_eq_ok.1 h
  unfold Readers.read at h
  cases hf : files name with
  | none => rw [hf] at h; cases h
  | some t =>
    rw [hf] at h
    obtain ⟨r, er, h⟩ := Res.bind_eq_ok.1 h
    cases h
    have key := readLoop_inv (s := (Ints.logSections (α := α))) (fun r => ∀ m, r.data.S = some m → m.rows ≤ 46340) (fun r line h => h) (fun r h => h)
      (fun tag f hf fuel r r' hr e => by
        unfold Ints.logSections at hf
        simp only [Map.get] at hf
        split at hf
        · cases hf
          intro m hm
          rw [aoAtoms_S _ _ _ _ _ e] at hm
          exact hr m hm
        split at hf
        · cases hf
          obtain ⟨x, ex, e⟩ := Res.bind_eq_ok.1 e
          cases e
          exact hr
        split at hf
        · cases hf
          intro m hm
          rw [readOrbEnergies_S _ _ _ _ e] at hm
          exact hr m hm
        split at hf
        · cases hf
          intro m hm
          rw [readOrbEnergies_S _ _ _ _ e] at hm
          exact hr m hm
        split at hf
        · cases hf
          obtain ⟨x, ex, e⟩ := Res.bind_eq_ok.1 e
          obtain ⟨m0, em0, e⟩ := Res.bind_eq_ok.1 e
          obtain ⟨m1, em1, e⟩ := Res.bind_eq_ok.1 e
          obtain ⟨_, -, e⟩ := Res.bind_eq_ok.1 e
          obtain ⟨y, ey, e⟩ := Res.bind_eq_ok.1 e
          cases e
          intro m hm
          cases hm
          obtain ⟨l1, l2⟩ := mk2_limit em0
          rw [blocks_rows _ _ _ _ _ _ _ _ (setRows_rows _ _ _ _ l1 em1) ey]
          exact l2
        · cases hf)
      fuel _ _ _ (fun m e => by cases e) er
    unfold LogData.getOverlapMatrix at hS
    split at hS
    · rename_i m hm
      cases hS
      exact key _ hm
    · cases hS

end

/-! ### calc_J -/

/-- **C133 (calc_J).** For every command line and all files: if the texts of the six files are modest and the log files list no more than 46340
orbital energies, atoms and basis functions, all of calc_J with checked `int`s - reading included - does exactly what it does with unbounded
ones, whatever that is. -/
theorem C133_calcJ [Zero α] [One α] [Add α] [Sub α] [Mul α] [Div α] [Num α] [DecidableEq β] {D : Type} [Dbl D] (tos : α → β) (files : Str → Option Str)
    (fuel : Nat) (hfuel : fuel < 2 ^ 31) (args : List Str) (hargs : ∀ v ∈ args, v.length + 4 < 2 ^ 63)
    (small : ∀ (q : Parser D) par, Args.parse (fsOf files) Args.calcJ args = .ok q → Args.prepareParameters q = .ok par →
      (∀ name ∈ [par.punP, par.pun1, par.pun2], ∀ t, files name = some t → ModestPun α t) ∧
      ∀ name ∈ [par.logP, par.log1, par.log2], (∀ t, files name = some t → ModestLog t) ∧
        ∀ d : LogData α, Readers.readLog files fuel name = .ok d → SmallLog d) :
    Ints.wholeRun D tos files fuel args = Verif.calcJRun D tos files fuel args := by
  have whole : Ints.wholeRun D tos files fuel args = Ints.calcJRun D tos files fuel args := by
    unfold Ints.wholeRun Ints.calcJRun
    rw [Args.prepareParser_ok]
    simp only [Res.ok_bind]
    refine bind_eq rfl fun q eq => ?_
    refine bind_eq rfl fun par epar => ?_
    obtain ⟨hpun, hlog⟩ := small q par eq epar
    refine bind_eq ?_ fun _ _ => rfl
    unfold Ints.readFiles Verif.readFiles
    rw [(C133_pun files par.punP (hpun _ (by simp)) fuel).1, (C133_pun files par.pun1 (hpun _ (by simp)) fuel).1,
      (C133_pun files par.pun2 (hpun _ (by simp)) fuel).1, C133_log files par.logP (hlog _ (by simp)).1 fuel hfuel,
      C133_log files par.log1 (hlog _ (by simp)).1 fuel hfuel, C133_log files par.log2 (hlog _ (by simp)).1 fuel hfuel]
  rw [whole]
  refine C125_calcJ tos files fuel args hargs fun q par eq epar => ?_
  obtain ⟨hpun, hlog⟩ := small q par eq epar
  exact ⟨fun name d hn e => (C133_pun files name (hpun name hn) fuel).2 d e, fun name d hn e => (hlog name hn).2 d e⟩

end Verif.Ints
