import Verif.Props.IntsRead
import Verif.Props.Fuel
/-
Property C133, for runs of any length: the number of passes, which C133_log limits, has no influence on a run that ends.
-/
namespace Verif.Ints
open QC Readers Strings LogLines Args Run
variable {α β : Type}

section
variable [Mul α] [Num α]

theorem rowLoop_le (b : Bool) (count : Nat) : ∀ n m, n ≤ m → ∀ fid line (row : List α),
    Le (Ints.rowLoop b count n fid line row) (Ints.rowLoop b count m fid line row)
  | 0, _, _, _, _, _ => Le.bot _
  | n + 1, 0, h, _, _, _ => absurd h (by omega)
  | n + 1, m + 1, h, fid, line, row => by
    unfold Ints.rowLoop
    refine Le.ite (Le.refl _) (Le.ite (Le.refl _) (Le.bind (Le.refl _) fun coef => ?_))
    cases getline fid line
    exact rowLoop_le b count n m (by omega) _ _ _

theorem coefLoop_le (t : Str) : ∀ n m, n ≤ m → ∀ b count fid (v : List (List α)),
    Le (Ints.coefLoop t n b count fid v) (Ints.coefLoop t m b count fid v)
  | 0, _, _, _, _, _, _ => Le.bot _
  | n + 1, 0, h, _, _, _, _ => absurd h (by omega)
  | n + 1, m + 1, h, b, count, fid, v => by
    unfold Ints.coefLoop
    cases getline fid []
    refine Le.bind (rowLoop_le _ _ n m (by omega) _ _ _) fun x => ?_
    obtain ⟨fid, line, row⟩ := x
    exact Le.ite (Le.refl _) (coefLoop_le t n m (by omega) _ _ _ _)

/-- **C133 (the limit, pun files).** With checked `int`s a pun file is read to its end only if every coefficient matrix has at most 2147483647 elements. -/
theorem C133_limit_pun (files : Str → Option Str) (fuel : Nat) (name : Str) {d : PunData α} (h : Ints.readPun files fuel name = .ok d) {spin : Str} {m : Mat α}
    (hm : d.getCoefsMatrix spin = .ok m) : m.rows * m.cols ≤ 2147483647 := by
  obtain ⟨_, -, h⟩ := Res.bind_eq_ok.1 h
  unfold Readers.read at h
  cases hf : files name with
  | none => rw [hf] at h; cases h
  | some t =>
    rw [hf] at h
    obtain ⟨r, er, h⟩ := Res.bind_eq_ok.1 h
    cases h
    have key := readLoop_inv (s := (Ints.punSections (α := α))) (fun r => ∀ k m, r.data.get k = some m → m.rows * m.cols ≤ 2147483647) (fun r line h => h) (fun r h => h)
      (fun tag f hf fuel r r' hr e => by
        have step : ∀ o, Ints.readCoef o fuel r = .ok r' → ∀ k m, r'.data.get k = some m → m.rows * m.cols ≤ 2147483647 := by
          intro o e
          obtain ⟨x, -, e⟩ := Res.bind_eq_ok.1 e
          obtain ⟨m', em, e⟩ := Res.bind_eq_ok.1 e
          cases e
          intro k m hk
          dsimp only at hk
          rw [Map.get_set] at hk
          split at hk
          · cases hk
            obtain ⟨rows, -, em⟩ := Res.bind_eq_ok.1 em
            obtain ⟨v0, -, em⟩ := Res.bind_eq_ok.1 em
            obtain ⟨cols, -, em⟩ := Res.bind_eq_ok.1 em
            obtain ⟨n, en, em⟩ := Res.bind_eq_ok.1 em
            obtain ⟨b, -, em⟩ := Res.bind_eq_ok.1 em
            cases em
            unfold Ints.mul Ints.fit at en
            split at en
            · rename_i hb
              exact hb.2
            · cases en
          · exact hr k m hk
        unfold Ints.punSections at hf
        simp only [Map.get] at hf
        split at hf
        · cases hf; exact step _ e
        split at hf
        · cases hf; exact step _ e
        · cases hf)
      fuel _ _ _ (fun k m e => by cases e) er
    unfold PunData.getCoefsMatrix at hm
    split at hm
    · rename_i m' hm'
      cases hm
      exact key spin _ hm'
    · cases hm

theorem readPun_mono (fs : Str → Option Str) (name : Str) : Mono (fun n => (Ints.readPun fs n name : Res (PunData α))) := by
  refine Mono.bind (Mono.const _) fun _ => read_mono (s := Ints.punSections) ?_ fs name _
  intro x hx r n m h
  simp only [Ints.punSections, List.mem_cons, List.not_mem_nil, or_false] at hx
  rcases hx with rfl | rfl <;> exact Le.bind (coefLoop_le _ n m h _ _ _ _) fun _ => Le.refl _

variable [Zero α]

theorem aoAtoms_le : ∀ n m, n ≤ m → ∀ atom (r : FR (LogData α)) line, Le (Ints.aoAtoms n atom r line) (Ints.aoAtoms m atom r line)
  | 0, _, _, _, _, _ => Le.bot _
  | n + 1, 0, h, _, _, _ => absurd h (by omega)
  | n + 1, m + 1, h, atom, r, line => by
    unfold Ints.aoAtoms
    refine Le.bind (Le.refl _) fun vals => Le.bind (Le.refl _) fun c => Le.bind (Le.refl _) fun c' => ?_
    refine Le.bind (aoRows_mono _ _ n m (by omega) _ _ _ _) fun x => ?_
    obtain ⟨r, line, b⟩ := x
    exact Le.bind (Le.refl _) fun a => Le.ite (Le.refl _) (aoAtoms_le n m (by omega) _ _ _)

theorem overlapFirst_le : ∀ n m, n ≤ m → ∀ fid line c k (rows : List (List α)),
    Le (Ints.overlapFirst n fid line c k rows) (Ints.overlapFirst m fid line c k rows)
  | 0, _, _, _, _, _, _, _ => Le.bot _
  | n + 1, 0, h, _, _, _, _, _ => absurd h (by omega)
  | n + 1, m + 1, h, fid, line, c, k, rows => by
    unfold Ints.overlapFirst
    refine Le.bind (Le.refl _) fun i => Le.bind (Le.refl _) fun _ => Le.ite (Le.refl _) (Le.bind (Le.refl _) fun _ => Le.bind (Le.refl _) fun row => ?_)
    exact overlapFirst_le n m (by omega) _ _ _ _ _

theorem energiesLoop_le (t : Str) : ∀ n m, n ≤ m → ∀ (r : FR (LogData α)) line, Le (Ints.energiesLoop t n r line) (Ints.energiesLoop t m r line)
  | 0, _, _, _, _ => Le.bot _
  | n + 1, 0, h, _, _ => absurd h (by omega)
  | n + 1, m + 1, h, r, line => by
    unfold Ints.energiesLoop
    refine Le.ite (Le.refl _) (Le.ite (Le.bind (Le.refl _) fun v => Le.bind (Le.refl _) fun d => ?_) (Le.refl _))
    exact energiesLoop_le t n m (by omega) _ _

theorem readLog_mono (fs : Str → Option Str) (name : Str) : Mono (fun n => (Ints.readLog fs n name : Res (LogData α))) := by
  refine Mono.bind (Mono.const _) fun _ => read_mono (s := Ints.logSections) ?_ fs name _
  intro x hx r n m h
  simp only [Ints.logSections, List.mem_cons, List.not_mem_nil, or_false] at hx
  rcases hx with rfl | rfl | rfl | rfl | rfl
  · exact aoAtoms_le n m h _ _ _
  · exact Le.bind (coordLoop_mono n m h _ _ _ _ _) fun _ => Le.refl _
  · exact Le.bind (energiesLoop_le _ n m h _ _) fun _ => Le.refl _
  · exact Le.bind (energiesLoop_le _ n m h _ _) fun _ => Le.refl _
  · exact Le.bind (overlapFirst_le n m h _ _ _ _ _) fun _ => Le.refl _

end

section
variable [Zero α] [One α] [Add α] [Sub α] [Mul α] [Div α] [Num α] [DecidableEq β] {D : Type} [Dbl D]

theorem readFiles_mono (files : Str → Option Str) (par : Params.Params) :
    Mono (fun n => (Ints.readFiles files n par : Res ((PunData α × PunData α × PunData α) × (LogData α × LogData α × LogData α)))) :=
  (readPun_mono _ _).bind fun _ => (readPun_mono _ _).bind fun _ => (readPun_mono _ _).bind fun _ => (readLog_mono _ _).bind fun _ =>
    (readLog_mono _ _).bind fun _ => (readLog_mono _ _).bind fun _ => Mono.const _

theorem wholeRun_mono (tos : α → β) (files : Str → Option Str) (args : List Str) : Mono (fun n => Ints.wholeRun D tos files n args) :=
  (Mono.const _).bind fun _ => (Mono.const _).bind fun _ => (Mono.const _).bind fun par => (readFiles_mono files par).bind fun _ => Mono.const _

/-- **C133 (runs that end).** Under the same conditions a run of calc_J that ends - with an answer, an exception, an exit status - ends in the same way
when every `int` is checked: nothing overflowed. -/
theorem C133_ends (tos : α → β) (files : Str → Option Str) (args : List Str) (hargs : ∀ v ∈ args, v.length + 4 < 2 ^ 63)
    (small : ∀ (q : Parser D) par, Args.parse (fsOf files) Args.calcJ args = .ok q → Args.prepareParameters q = .ok par →
      (∀ name ∈ [par.punP, par.pun1, par.pun2], ∀ t, files name = some t → ModestPun α t) ∧
      ∀ name ∈ [par.logP, par.log1, par.log2], (∀ t, files name = some t → ModestLog t) ∧
        ∀ fuel, ∀ d : LogData α, Readers.readLog files fuel name = .ok d → SmallLog d)
    {out : Res (Params.Params × Report α)} (h : Ends (fun n => Verif.calcJRun D tos files n args) out) :
    Ends (fun n => Ints.wholeRun D tos files n args) out := by
  have hs : Settled 2100000006 (fun n => Verif.calcJRun D tos files n args) := by
    refine Settled.bind (Settled.const _ _) fun p hp => Settled.bind (Settled.const _ _) fun q hq => Settled.bind (Settled.const _ _) fun par hpar => ?_
    rw [Args.prepareParser_ok] at hp
    obtain ⟨hpun, hlog⟩ := small q par (by rw [Res.ok.inj hp]; exact hq) hpar
    have log : ∀ name ∈ [par.logP, par.log1, par.log2], Settled 2100000006 (fun n => (Readers.readLog files n name : Res (LogData α))) :=
      fun name hn => (readLog_settled files name 700000000 fun t ht => ((hlog name hn).1 t ht).size).mono (by omega)
    have pun : ∀ name ∈ [par.punP, par.pun1, par.pun2], Settled 2100000006 (fun n => (Readers.readPun files n name : Res (PunData α))) :=
      fun name hn => (readPun_settled files name 700000000 fun t ht => (hpun name hn t ht).size).mono (by omega)
    refine Settled.bind ?_ fun _ _ => Settled.const _ _
    exact Settled.bind (pun _ (by simp)) fun _ _ => Settled.bind (pun _ (by simp)) fun _ _ =>
      Settled.bind (pun _ (by simp)) fun _ _ => Settled.bind (log _ (by simp)) fun _ _ => Settled.bind (log _ (by simp)) fun _ _ =>
      Settled.bind (log _ (by simp)) fun _ _ => Settled.const _ _
  rcases decided (calcJRun_mono tos files args) hs with e | e
  · obtain ⟨e1, N, hN⟩ := e
    obtain ⟨h1, M, hM⟩ := h
    have hout : Verif.calcJRun D tos files 2100000006 args = out := (hN (max N M) (by omega)).symm.trans (hM (max N M) (by omega))
    have key := C133_calcJ (D := D) tos files 2100000006 (by omega) args hargs fun q par eq epar =>
      ⟨(small q par eq epar).1, fun name hn => ⟨((small q par eq epar).2 name hn).1, ((small q par eq epar).2 name hn).2 _⟩⟩
    rw [hout] at key
    refine ⟨h1, 2100000006, fun fuel hf => ?_⟩
    exact (wholeRun_mono (D := D) tos files args 2100000006 fuel hf (fun e => h1 (key.symm.trans e))).trans key
  · obtain ⟨h1, M, hM⟩ := h
    exact absurd ((hM M (Nat.le_refl _)).symm.trans (e M)) h1

end
end Verif.Ints
