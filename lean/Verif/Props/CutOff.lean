import Verif.CutOffLog
import Verif.Props.PunLines
/-
C142: files that are cut off, at any character.
-/
namespace Verif.CutOff
open Readers Log Strings
open Pun (RowLines Orbitals Announces together lineCoefs Complete)

variable {α : Type} [Mul α] [Num α]

/-- **C142 (every cut).** Whatever a text begins with is that text cut off in one of its lines. -/
theorem C142_cut {t t' : Str} (h : t' <+: t) : ∃ m p, CutAt t t' m p := cut_of_prefix h

/-! ### punch files -/

section pun
variable [Zero α] {fs : Str → Option Str} {name t t' : Str} {m : Nat} {p : Str} (hn : Fits name) (hx : PlainName (lit ".pun") name) (hf : fs name = some t')
  (ht : Fits t') (h : CutAt t t' m p)
include hn hx hf ht h

/-- **C142 (punch file, between tables).** If the cut is in a line that is in no table, the tables before it are read, and nothing shows that
there were more. -/
theorem C142_pun_between {d : Pun.Known α} (hu : Pun.Upto t 0 (fun _ => none) m d) (hp : ∀ spin, ¬ Announces p spin) :
    ∃ D, Ends (fun n => (readPun fs n name : Res (PunData α))) (.ok D) ∧ (∀ spin : Spin,
      (∀ rows, d spin = some rows → ∃ m, D.getCoefsMatrix spin.name = .ok m ∧ m.rows = rows.length ∧ m.cols = (rows.headD []).length ∧
        ∀ (i : Nat) (hi : i < rows.length) (j : Nat) (hj : j < rows[i].length), m.getElem2 (i + 1) (j + 1) = .ok (rows[i][j])) ∧
      (d spin = none → D.getCoefsMatrix spin.name = .throw .invalidArgument)) := by
  obtain ⟨D, h1, h2, -⟩ := C119_says fs name t' hn hx hf ht d (cut_between h hu hp)
  exact ⟨D, h1, h2⟩

/-- **C142 (punch file, after a line of a table).** If the cut is right after a line end, in a table, before an orbital has as many
coefficients as the one before, reading never ends. -/
theorem C142_pun_line_end {d : Pun.Known α} {j i k : Nat} {spin : Spin} {rows : List (List α)} {count : Option Nat} {vals : Nat → List α}
    (hu : Pun.Upto t 0 (fun _ => none) j d) (ha : Announces (lineAt t j) spin) (ho : Orbitals t spin none (j + 1) rows count i)
    (hr : RowLines t count i k vals) (hm : i + k = m) (hp : p = []) (hc : ∀ c, count = some c → (together vals k).length < c) :
    Hangs (fun n => (readPun fs n name : Res (PunData α))) := by
  have := orbitals_far ho
  refine C119_endless fs name t' hn hx hf ht (upto_endless (cut_upto h (by omega) hu) (.here (h.some_line (by omega)) ?_ (orbitals_endless (cut_orbitals h (by omega) ho)
    (.here (cut_row h hp hm hr hc)))))
  rw [h.before (by omega)]
  exact ha

/-- **C142 (punch file, in the line that announces a table).** If it still does, reading never ends. -/
theorem C142_pun_title {d : Pun.Known α} {spin : Spin} (hu : Pun.Upto t 0 (fun _ => none) m d) (ha : Announces p spin) :
    Hangs (fun n => (readPun fs n name : Res (PunData α))) := by
  have he : ∀ j, Pun.rowLine t' (m + 1) j = [] := by
    intro j
    unfold Pun.rowLine
    rw [h.len, if_neg (by omega)]
  have hnl : ¬ Pun.NoLine t' m := by
    rw [h.noLine]
    rintro rfl
    cases spin
    · obtain ⟨x, y, e⟩ := ha
      have := congrArg List.length e
      simp at this
    · obtain ⟨x, y, e⟩ := ha.2
      have := congrArg List.length e
      simp at this
  refine C119_endless fs name t' hn hx hf ht (upto_endless (cut_upto h (Nat.le_refl _) hu) (.here (spin := spin) hnl ?_ (.here ⟨fun _ => [], fun k j _ => ?_⟩)))
  · rw [h.after (Nat.le_refl _)]
    exact ha
  · rw [he]
    refine ⟨?_, rfl⟩
    rintro (⟨x, y, e⟩ | ⟨c, e, -⟩)
    · have := congrArg List.length e
      simp at this
    · cases e

/-- **C142 (punch file, in a line of a table).** If the cut is in a line of coefficients of an orbital that is not the first one, what is
left of that line (coefficients `w`) is read again and again; if that comes out even, the file is accepted: with the right number of orbitals and
coefficients, when it was the last orbital, but the wrong coefficients. -/
theorem C142_pun_again {d : Pun.Known α} {j i k q count : Nat} {spin : Spin} {rows : List (List α)} {vals : Nat → List α} {w : List α}
    (hu : Pun.Upto t 0 (fun _ => none) j d) (ha : Announces (lineAt t j) spin) (ho : Orbitals t spin none (j + 1) rows (some count) i)
    (hsame : ∀ v ∈ rows, v.length = count)
    (hr : RowLines t (some count) i k vals) (hm : i + k = m) (hw : lineCoefs p = .ok w) (hp : ¬ Contains p (lit " MO OE") ∧ ¬ Contains p spin.name)
    (hne : w ≠ []) (hq : 1 ≤ q) (hc : (together vals k).length + q * w.length = count) :
    ∃ D, Ends (fun n => (readPun fs n name : Res (PunData α))) (.ok D) ∧
      ∃ M, D.getCoefsMatrix spin.name = .ok M ∧ M.rows = rows.length + 1 ∧ M.cols = count ∧
        (∀ (r : Nat) (hr : r < rows.length) (c : Nat) (hc : c < rows[r].length), M.getElem2 (r + 1) (c + 1) = .ok (rows[r][c])) ∧
        ∀ (c : Nat) v, (together vals k ++ (List.replicate q w).flatten)[c]? = some v → M.getElem2 (rows.length + 1) (c + 1) = .ok v := by
  have := orbitals_far ho
  have hrow : (together vals k ++ (List.replicate q w).flatten).length = count := by
    rw [List.length_append, List.length_flatten, List.map_replicate, List.sum_replicate, smul_eq_mul, hc]
  generalize hR : together vals k ++ (List.replicate q w).flatten = R at hrow
  have hlast : Pun.TableAt t' spin (some count) i [R] (i + (k + q) + 1) := by
    refine .last (hR ▸ cut_row_again h hm hr hw hp.1 hq hne hc) ?_
    rw [h.row_after (by omega) (by omega)]
    exact hp.2
  have htab := orbitals_table (cut_orbitals h (by omega) ho) hlast
  have hlen : ∀ v ∈ rows ++ [R], v.length = count := by
    intro v hv
    rcases List.mem_append.1 hv with hv | hv
    · exact hsame v hv
    · rw [List.mem_singleton.1 hv, hrow]
  have hhead : ((rows ++ [R]).headD []).length = count := by
    cases rows with
    | nil => exact hrow
    | cons v vs => exact hsame v (List.mem_cons_self ..)
  have hs : Pun.Says t' 0 (fun _ => none) (fun s => if s = spin then some (rows ++ [R]) else d s) := by
    refine upto_says (cut_upto h (by omega) hu) (.table (h.some_line (by omega)) (by rw [h.before (by omega)]; exact ha) htab ?_ (.done (.inl ?_)))
    · intro v hv
      rw [hlen v hv, hhead]
    · rw [h.len]; omega
  obtain ⟨D, h1, h2, -⟩ := C119_says fs name t' hn hx hf ht _ hs
  obtain ⟨M, e1, e2, e3, e4⟩ := (h2 spin).1 (rows ++ [R]) (if_pos rfl)
  refine ⟨D, h1, M, e1, by rw [e2]; simp, by rw [e3, hhead], fun r hr c hc => ?_, fun c v hv => ?_⟩
  · have := e4 r (by simp; omega) c (by rw [List.getElem_append_left hr]; exact hc)
    rw [this]
    congr 1
    simp only [List.getElem_append_left hr]
  · obtain ⟨hc, rfl⟩ := List.getElem?_eq_some_iff.1 hv
    have := e4 rows.length (by simp) c (by simpa using hc)
    rw [this]
    congr 1
    simp

end pun

/-! ### log files -/

section log
variable [Zero α] {fs : Str → Option Str} {name t t' : Str} {m : Nat} {p : Str} (hn : Fits name) (hx : PlainName (lit ".log") name) (hf : fs name = some t')
  (ht : Fits t') (h : CutAt t t' m p)
include hn hx hf ht h

/-- **C142 (log file, between tables).** The same. -/
theorem C142_log_between {d : LogLines.Known α} (hu : LogLines.Upto t 0 LogLines.nothing m d) (hp : ∀ k, ¬ LogLines.Announces p k) :
    ∃ D, Ends (fun n => (readLog fs n name : Res (LogData α))) (.ok D) ∧ LogLines.Gives D d :=
  LogLines.C120_says fs name t' hn hx hf ht d (log_cut_between h hu hp)

/-- **C142 (log file, in a table of positions or populations).** If the line that ends the table is missing, the file is not accepted. -/
theorem C142_log_refused {d : LogLines.Known α} {j : Nat} {k : LogLines.Kind} (hu : LogLines.Upto t 0 LogLines.nothing j d) (hj : j < m)
    (ha : LogLines.Announces (lineAt t j) k)
    (hr : k = .coords ∧ (∀ x, j + 3 ≤ x → x < m → ¬ LogLines.IsRuler (lineAt t x)) ∧ ¬ LogLines.IsRuler p ∨
      k = .population ∧ (∀ x, j + 3 ≤ x → x < m → ¬ LogLines.IsEnd (lineAt t x)) ∧ ¬ LogLines.IsEnd p) :
    (∃ x : LogLines.Fault, Ends (fun n => (readLog fs n name : Res (LogData α))) x.out) ∨ Hangs (fun n => (readLog fs n name : Res (LogData α))) := by
  have ha' : LogLines.Announces (lineAt t' j) k := by rw [h.before hj]; exact ha
  have hu' := log_cut_upto h (by omega) hu
  rcases LogLines.kind_trichotomy (α := α) t' j k with ⟨f, e, -, hT⟩ | ⟨x, hB⟩ | hE
  · rcases hr with ⟨rfl, h1, h2⟩ | ⟨rfl, h1, h2⟩
    · exact absurd hT (cut_coords h hj h1 h2)
    · exact absurd hT (cut_population h hj h1 h2)
  · exact .inl ⟨x, LogLines.C120_fails fs name t' hn hx hf ht x (log_upto_fails hu' (.bad (h.some_line hj) ha' hB))⟩
  · exact .inr (LogLines.C120_endless fs name t' hn hx hf ht (log_upto_endless hu' (.here (h.some_line hj) ha' hE)))

/-- **C142 (log file, after a line of energies).** The file is accepted, with fewer energies. -/
theorem C142_log_energies {d : LogLines.Known α} {j k : Nat} {spin : Spin} (hu : LogLines.Upto t 0 LogLines.nothing j d)
    (ha : LogLines.Announces (lineAt t j) (.energies spin)) (hk : 1 ≤ k) (hm : j + k = m)
    (hl : ∀ x < k, LogLines.IsOcc spin (lineAt t (j + x)) ∨ LogLines.IsVirt spin (lineAt t (j + x)))
    (hp : (∀ k, ¬ LogLines.Announces p k) ∧ ¬ LogLines.IsOcc spin p ∧ ¬ LogLines.IsVirt spin p) :
    ∃ D, Ends (fun n => (readLog fs n name : Res (LogData α))) (.ok D) ∧ D.getOE spin.name = .ok (LogLines.energiesOn t j k) ∧
      D.getHOMOLevel spin.name = .ok (LogLines.occupiedOn α t spin j k : Int) := by
  obtain ⟨D, h1, h2⟩ := LogLines.C120_says fs name t' hn hx hf ht _ (log_upto_says (log_cut_upto h (by omega) hu) (cut_energies h hk hm ha hl hp.1 hp.2.1 hp.2.2 d))
  have e1 := h2.energies spin
  have e2 := h2.homo spin
  dsimp only at e1 e2
  rw [if_pos rfl] at e1 e2
  exact ⟨D, h1, e1, e2⟩

open Classical in
/-- **C142 (log file, in a line of energies).** The file is accepted, with fewer energies, and with what is left of the line. -/
theorem C142_log_energy_line {d : LogLines.Known α} {j k : Nat} {spin : Spin} (hu : LogLines.Upto t 0 LogLines.nothing j d)
    (ha : LogLines.Announces (lineAt t j) (.energies spin)) (hk : 1 ≤ k) (hm : j + k = m)
    (hl : ∀ x < k, LogLines.IsOcc spin (lineAt t (j + x)) ∨ LogLines.IsVirt spin (lineAt t (j + x)))
    (hp : LogLines.IsOcc spin p ∨ LogLines.IsVirt spin p) :
    ∃ D, Ends (fun n => (readLog fs n name : Res (LogData α))) (.ok D) ∧ D.getOE spin.name = .ok (LogLines.energiesOn t j k ++ LogLines.lineEnergies p) ∧
      D.getHOMOLevel spin.name = .ok ((LogLines.occupiedOn α t spin j k + if LogLines.IsOcc spin p then (LogLines.lineEnergies p : List α).length else 0 : Nat) : Int) := by
  obtain ⟨D, h1, h2⟩ := LogLines.C120_says fs name t' hn hx hf ht _ (log_upto_says (log_cut_upto h (by omega) hu) (cut_energy_line h hk hm ha hl hp d))
  have e1 := h2.energies spin
  have e2 := h2.homo spin
  dsimp only at e1 e2
  rw [if_pos rfl] at e1 e2
  exact ⟨D, h1, e1, e2⟩

/-- **C142 (log file, before the first row of overlaps).** `invalid_argument`. -/
theorem C142_log_no_row {d : LogLines.Known α} {j : Nat} (hu : LogLines.Upto t 0 LogLines.nothing j d) (ha : LogLines.Announces (lineAt t j) .overlap)
    (hj : j < m) (hm : m ≤ j + 2) (hp : p = []) : Ends (fun n => (readLog fs n name : Res (LogData α))) (.throw .invalidArgument) :=
  LogLines.C120_fails fs name t' hn hx hf ht (.throws .invalidArgument) (log_upto_fails (log_cut_upto h (by omega) hu)
    (.bad (h.some_line hj) (by rw [h.before hj]; exact ha) (.overlap (cut_no_row h hp hj hm))))

omit [Mul α] [Num α] hn hx hf ht h in
theorem entry_comm (cs : List (Nat × Nat × α)) (r c : Nat) : LogLines.entry cs r c = LogLines.entry cs c r := by
  unfold LogLines.entry
  have : (fun x : Nat × Nat × α => decide ((x.1 = r ∧ x.2.1 = c) ∨ (x.1 = c ∧ x.2.1 = r))) =
      fun x => decide ((x.1 = c ∧ x.2.1 = r) ∨ (x.1 = r ∧ x.2.1 = c)) := by
    funext x
    exact decide_eq_decide.2 or_comm
  rw [this]

omit [Mul α] [Num α] hn hx hf ht h in
/-- Any two entries, from the lower triangle. -/
theorem entry_both {n n' : Nat} {vals vals' : Nat → Nat → List α} (hl : LogLines.Lower vals) (hl' : LogLines.Lower vals') {P : Nat → Nat → Prop} [∀ b r, Decidable (P b r)]
    (hv : ∀ b r, 5 * b < r → r ≤ n' → vals' b r = if P b r then vals b r else []) (hnn : n' ≤ n) {r c : Nat} (hr : 1 ≤ r) (hr' : r ≤ n') (hc : 1 ≤ c) (hc' : c ≤ n') :
    LogLines.entry (LogLines.cells n' vals') r c = if P ((min r c - 1) / 5) (max r c) then LogLines.entry (LogLines.cells n vals) r c else 0 := by
  wlog hrc : c ≤ r generalizing r c
  · rw [entry_comm, this hc hc' hr hr' (by omega), Nat.min_comm, Nat.max_comm, entry_comm (LogLines.cells n vals)]
  rw [entry_lower hl' hc hrc hr', entry_lower hl hc hrc (by omega), Nat.min_eq_right hrc, Nat.max_eq_left hrc, hv _ _ (by omega) hr']
  split
  · rfl
  · rfl

/-- **C142 (log file, after a row in the first block of overlaps).** The file is accepted, with a matrix of as many rows as were read. -/
theorem C142_log_fewer_rows {d : LogLines.Known α} {j n k : Nat} {vals : Nat → Nat → List α} (hu : LogLines.Upto t 0 LogLines.nothing j d)
    (ha : LogLines.Announces (lineAt t j) .overlap) (ho : LogLines.OverlapAt t j n vals) (hl : LogLines.Lower vals) (hk : 1 ≤ k) (hkn : k ≤ n) (hm : j + 2 + k = m) (hp : p = []) :
    ∃ D, Ends (fun n => (readLog fs n name : Res (LogData α))) (.ok D) ∧ ∃ M, D.getOverlapMatrix = .ok M ∧ M.rows = k ∧ M.cols = k ∧
      ∀ r c : Nat, 1 ≤ r → r ≤ k → 1 ≤ c → c ≤ k →
        M.getElem2 r c = .ok (if min r c ≤ 5 then LogLines.entry (LogLines.cells n vals) r c else 0) := by
  have hT := LogLines.Table.overlap (cut_first_block h hp hk hkn hm ho.2.1 (fun r _ h2 => by have := (hl 0 r).2; omega))
  have hlen := h.len
  have hs := log_upto_says (log_cut_upto h (by omega) hu) (.table (h.some_line (by omega)) (by rw [h.before (by omega)]; exact ha) hT (.done (.inl (by
    have := blockLine_le k (show 1 ≤ (k + 4) / 5 by omega)
    have hb : LogLines.blockLine k 1 = k + 2 := by
      show 1 + (k - 5 * 0) + 1 = k + 2
      omega
    omega))))
  obtain ⟨D, h1, h2⟩ := LogLines.C120_says fs name t' hn hx hf ht _ hs
  have h3 := h2.overlap
  dsimp only at h3
  obtain ⟨M, e1, e2, e3, e4⟩ := h3
  refine ⟨D, h1, M, e1, by rw [e2], by rw [e3], fun r c g1 g2 g3 g4 => ?_⟩
  have hl' : LogLines.Lower (fun b r => if b = 0 then vals 0 r else []) := by
    intro b r
    dsimp only
    split
    · rename_i hb; rw [hb]; exact hl 0 r
    · simp
  rw [e4 r c g1 g2 g3 g4, entry_both (n := n) hl hl' (P := fun b _ => b = 0) (fun b r _ _ => by
    by_cases hb : b = 0
    · subst hb; rfl
    · simp only [if_neg hb]) hkn g1 g2 g3 g4]
  congr 1
  by_cases hrc : min r c ≤ 5
  · rw [if_pos hrc, if_pos (by omega)]
  · rw [if_neg hrc, if_neg (by omega)]

/-- **C142 (log file, after a line in the overlaps, behind the first block).** The file is accepted, and what was cut off is taken to be zero. -/
theorem C142_log_zeros {d : LogLines.Known α} {j n : Nat} {vals : Nat → Nat → List α} (hu : LogLines.Upto t 0 LogLines.nothing j d)
    (ha : LogLines.Announces (lineAt t j) .overlap) (ho : LogLines.OverlapAt t j n vals) (hl : LogLines.Lower vals) (hm : j + 2 + n ≤ m)
    (he : m ≤ j + 1 + LogLines.blockLine n ((n + 4) / 5)) (hp : p = []) :
    ∃ D, Ends (fun n => (readLog fs n name : Res (LogData α))) (.ok D) ∧ ∃ M, D.getOverlapMatrix = .ok M ∧ M.rows = n ∧ M.cols = n ∧
      ∀ r c : Nat, 1 ≤ r → r ≤ n → 1 ≤ c → c ≤ n →
        M.getElem2 r c = .ok (if LogLines.lineOf j n r c < m then LogLines.entry (LogLines.cells n vals) r c else 0) := by
  have hT := LogLines.Table.overlap (cut_later_block h hp hm ho)
  have hlen := h.len
  have hs := log_upto_says (log_cut_upto h (by omega) hu) (.table (h.some_line (by omega)) (by rw [h.before (by omega)]; exact ha) hT (.done (by
    by_cases hx : m + 1 ≤ j + 1 + LogLines.blockLine n ((n + 4) / 5)
    · exact .inl (by omega)
    · have hx : j + 1 + LogLines.blockLine n ((n + 4) / 5) = m := by omega
      rw [hx]
      exact h.noLine.2 hp)))
  obtain ⟨D, h1, h2⟩ := LogLines.C120_says fs name t' hn hx hf ht _ hs
  have h3 := h2.overlap
  dsimp only at h3
  obtain ⟨M, e1, e2, e3, e4⟩ := h3
  refine ⟨D, h1, M, e1, by rw [e2], by rw [e3], fun r c g1 g2 g3 g4 => ?_⟩
  have hl' : LogLines.Lower (fun b r => if j + 1 + (LogLines.blockLine n b + (r - 5 * b - 1)) < m then vals b r else []) := by
    intro b r
    dsimp only
    split
    · exact hl b r
    · simp
  rw [e4 r c g1 g2 g3 g4, entry_both (n := n) hl hl' (P := fun b r => j + 1 + (LogLines.blockLine n b + (r - 5 * b - 1)) < m) (fun b r _ _ => rfl)
    (Nat.le_refl _) g1 g2 g3 g4]
  unfold LogLines.lineOf
  simp only [Nat.add_assoc]

end log

end Verif.CutOff
