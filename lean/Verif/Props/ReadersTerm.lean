import Verif.Props.ReadersA
/-
Property C69: termination of reading.
-/
namespace Verif.Readers
open Strings Log Pun

variable {α : Type} [Mul α] [Num α] [Zero α]

private theorem fileExt_halts (name : Str) : Halts (fileExt name) := by
  obtain ⟨d, f, e, -⟩ := lastStringInPath_ok name
  unfold fileExt
  rw [e]
  simp only [Res.ok_bind]
  split
  · exact .throw _
  · exact substr_halts _ _ _

private theorem checkSections_halts {σ : Type} (s : Sections σ) : Halts (checkSections s) := by
  unfold checkSections
  simp only []
  split
  · exact .throw _
  · exact .ok _

private theorem log_ends (fs : Str → Option Str) (name : Str)
    (h : ∀ text, fs name = some text → ∃ out, Ends (runFrom (logSections (α := α)) text LogData.empty) out) :
    ∃ out, Ends (fun n => (readLog fs n name : Res (LogData α))) out := by
  have hnew : Halts (logReaderNew (α := α) name) := by
    refine (fileExt_halts name).bind fun e _ => ?_
    split
    · exact .throw _
    · exact checkSections_halts _
  have := EndsWith.bindConst (x := logReaderNew (α := α) name) (g := fun n _ => read (logSections (α := α)) fs name n LogData.empty)
    (Q := fun _ => True) hnew (fun _ _ => by
      cases hf : fs name with
      | none =>
        have e : (fun n => read (logSections (α := α)) fs name n LogData.empty) = fun _ => .throw .invalidArgument := by
          funext n; unfold read; rw [hf]
        rw [e]; exact EndsWith.const _ (.throw _) (fun _ _ => trivial)
      | some text =>
        obtain ⟨out, ho⟩ := h text hf
        refine ⟨out, ?_, fun _ _ => trivial⟩
        have e : (fun n => read (logSections (α := α)) fs name n LogData.empty) = runFrom logSections text LogData.empty := by
          funext n; exact read_eq _ _ _ _ hf _ _
        rw [e]; exact ho)
  obtain ⟨out, ho, -⟩ := this
  exact ⟨out, ho⟩

omit [Zero α] in
private theorem pun_ends (fs : Str → Option Str) (name : Str)
    (h : ∀ text, fs name = some text → ∃ out, Ends (runFrom (punSections (α := α)) text []) out) :
    ∃ out, Ends (fun n => (readPun fs n name : Res (PunData α))) out := by
  have hnew : Halts (punReaderNew (α := α) name) := by
    refine (fileExt_halts name).bind fun e _ => ?_
    split
    · exact .throw _
    · exact checkSections_halts _
  have := EndsWith.bindConst (x := punReaderNew (α := α) name) (g := fun n _ => read (punSections (α := α)) fs name n [])
    (Q := fun _ => True) hnew (fun _ _ => by
      cases hf : fs name with
      | none =>
        have e : (fun n => read (punSections (α := α)) fs name n []) = fun _ => .throw .invalidArgument := by
          funext n; unfold read; rw [hf]
        rw [e]; exact EndsWith.const _ (.throw _) (fun _ _ => trivial)
      | some text =>
        obtain ⟨out, ho⟩ := h text hf
        refine ⟨out, ?_, fun _ _ => trivial⟩
        have e : (fun n => read (punSections (α := α)) fs name n []) = runFrom punSections text [] := by
          funext n; exact read_eq _ _ _ _ hf _ _
        rw [e]; exact ho)
  obtain ⟨out, ho, -⟩ := this
  exact ⟨out, ho⟩

/-! ### what does end -/

/-- C69 (log files, partial): constructing a reader and reading ends, for every file name and every file that is missing, or
consists of complete lines and has a blank after the hyphens of each line that announces energies and an end for each table of
populations. Nothing else is assumed of the file: tables may be cut off or contain anything. -/
theorem C69_log_partial (fs : Str → Option Str) (name : Str)
    (h : ∀ text, fs name = some text → ∃ ls, text = unlines ls ∧ (∀ l ∈ ls, IsLine l) ∧ LogGuards ls) :
    ∃ out, Ends (fun n => (readLog fs n name : Res (LogData α))) out := by
  refine log_ends fs name fun text ht => ?_
  obtain ⟨ls, rfl, hl, hg⟩ := h text ht
  exact log_stops ls hl hg _

/-- C69 (log files, partial): reading any well-formed log file ends, and without an error. -/
theorem C69_log_well_formed_partial (fs : Str → Option Str) (name : Str) (hfit : Fits name) (hname : PlainName (lit ".log") name)
    (ps : List (Log.Piece α)) (tail : Str) (hf : LogFile ps tail) (h : fs name = some (logText ps tail)) :
    ∃ d, Ends (fun n => (readLog fs n name : Res (LogData α))) (.ok d) := by
  obtain ⟨d', -, he⟩ := run_pieces ps tail hf LogData.empty
  refine ⟨d', ?_⟩
  have e : (fun n => (readLog fs n name : Res (LogData α))) = runFrom logSections (logText ps tail) LogData.empty := by
    funext n
    unfold readLog
    rw [((C70_accepted_partial (α := α) name hfit).1).2 hname]
    simp only [Res.ok_bind]
    exact read_eq _ _ _ _ h _ _
  rw [e]; exact he

omit [Zero α] in
/-- C69 (pun files, partial): the same for pun files; it is enough that the last line contains ` MO OE` and no spin. -/
theorem C69_pun_partial (fs : Str → Option Str) (name : Str)
    (h : ∀ text, fs name = some text → ∃ ls, text = unlines ls ∧ (∀ l ∈ ls, IsLine l) ∧ PunGuard ls) :
    ∃ out, Ends (fun n => (readPun fs n name : Res (PunData α))) out := by
  refine pun_ends fs name fun text ht => ?_
  obtain ⟨ls, rfl, hl, hg⟩ := h text ht
  exact pun_stops ls hl hg _

/-- C69 (pun files, partial): reading any well-formed pun file ends, and without an error. -/
theorem C69_pun_well_formed_partial (fs : Str → Option Str) (name : Str) (hfit : Fits name) (hname : PlainName (lit ".pun") name)
    (ps : List (Pun.Piece α)) (e : Ending α) (hf : PunFile ps e) (h : fs name = some (punText ps e)) :
    ∃ d, Ends (fun n => (readPun fs n name : Res (PunData α))) (.ok d) := by
  obtain ⟨d', -, he⟩ := run_pun ps e hf []
  refine ⟨d', ?_⟩
  have e : (fun n => (readPun fs n name : Res (PunData α))) = runFrom punSections (punText ps e) [] := by
    funext n
    unfold readPun
    rw [((C70_accepted_partial (α := α) name hfit).2.2.1).2 hname]
    simp only [Res.ok_bind]
    exact read_eq _ _ _ _ h _ _
  rw [e]; exact he

/-! ### what does not -/

private theorem hang_log (fs : Str → Option Str) (name text : Str) (hfit : Fits name) (hname : PlainName (lit ".log") name)
    (h : fs name = some text) (hh : Hangs (runFrom (logSections (α := α)) text LogData.empty)) :
    Hangs (fun n => (readLog fs n name : Res (LogData α))) := by
  intro n
  show readLog fs n name = _
  unfold readLog
  rw [((C70_accepted_partial (α := α) name hfit).1).2 hname]
  simp only [Res.ok_bind]
  rw [read_eq _ _ _ _ h]
  exact hh n

private theorem before_boring {before : List Str} (hb : ∀ l ∈ before, Log.Plain l) :
    ∀ l ∈ before, IsLine l ∧ startSection (logSections (α := α)).headers l = [] :=
  fun l hl => ⟨(hb l hl).1, start_plain (hb l hl)⟩

private theorem header_fact : ∀ spin ∈ [Spin.alpha, Spin.beta], ∀ th ∈ logHeaders, ∀ p ∈ th.2, p ∈ announcements ∧
    (p = energyHeader spin → strLt th.1 (energyTag spin) = false) := by decide

/-- C69 is false for log files: after any plain lines, a line that announces Alpha (Beta) energies without a blank after the
hyphens (so that it is not taken for a line of energies) is read over and over again, whatever follows. -/
theorem C69_refuted_energies (spin : Spin) (before : List Str) (hb : ∀ l ∈ before, Log.Plain l) (l rest : Str) (hl : IsLine l)
    (hc : Contains l (energyHeader spin)) (hother : ∀ p ∈ announcements, Contains l p → p = energyHeader spin)
    (hn : NoEnergyLine spin l) (fs : Str → Option Str) (name : Str) (hfit : Fits name) (hname : PlainName (lit ".log") name)
    (h : fs name = some (unlines before ++ (l ++ '\n' :: rest))) : Hangs (fun n => (readLog fs n name : Res (LogData α))) := by
  refine hang_log fs name _ hfit hname h (hang_boring_lines _ (before_boring hb) ?_)
  refine energies_hang spin hl ?_ hn _
  have hs : Sorted (logSections (α := α)).headers := (C68_log_and_pun (α := α)).2.1
  have hno : ∀ tag' ps', (tag', ps') ∈ (logSections (α := α)).headers →
      strLt tag' (energyTag spin) = true → ∀ p ∈ ps', ¬ Contains l p := by
    intro tag' ps' hm hlt p hp hcp
    rw [headers_eq] at hm
    have hpe := header_fact spin (by cases spin <;> simp) _ hm p hp
    rw [hpe.2 (hother p hpe.1 hcp)] at hlt
    cases hlt
  have hmem : ∀ spin ∈ [Spin.alpha, Spin.beta], (energyTag spin, [energyHeader spin]) ∈ logHeaders := by decide
  have hm : (energyTag spin, [energyHeader spin]) ∈ (logSections (α := α)).headers := by
    rw [headers_eq]; exact hmem spin (by cases spin <;> simp)
  exact startSection_first hs hm ⟨_, List.mem_singleton.2 rfl, hc⟩ hno

/-- C69 is false for log files: so is a table of populations that is cut off after two functions or more of its first atom. -/
theorem C69_refuted_populations (before : List Str) (hb : ∀ l ∈ before, Log.Plain l) (a : Atom α) (ha : AtomRows a)
    (hm : a.more ≠ []) {header l2 : Str} (hh : IsLine header) (hc : Contains header (lit "     Gross orbital populations:"))
    (h2 : IsLine l2) (fs : Str → Option Str) (name : Str) (hfit : Fits name) (hname : PlainName (lit ".log") name)
    (h : fs name = some (unlines before ++ unlines (header :: l2 :: a.fns.map (·.text)))) :
    Hangs (fun n => (readLog fs n name : Res (LogData α))) :=
  hang_log fs name _ hfit hname h (hang_boring_lines _ (before_boring hb) (population_hang a ha hm hh hc h2 _))

/-- C69 is false for log files: so is a coordinate table that is cut off at the end of a row, before the line end. -/
theorem C69_refuted_coordinates (before : List Str) (hb : ∀ l ∈ before, Log.Plain l) {header l2 l3 : Str} (hh : CoordHeader header)
    (h2 : IsLine l2) (h3 : IsLine l3) (rows : List (Str × α × α × α)) (last : Str × α × α × α) (hr : ∀ r ∈ rows, CoordRow r)
    (hl : CoordRow last) (fs : Str → Option Str) (name : Str) (hfit : Fits name) (hname : PlainName (lit ".log") name)
    (h : fs name = some (unlines before ++ (unlines (header :: l2 :: l3 :: rows.map (·.1)) ++ last.1))) :
    Hangs (fun n => (readLog fs n name : Res (LogData α))) :=
  hang_log fs name _ hfit hname h (hang_boring_lines _ (before_boring hb) (coords_hang hh h2 h3 rows last hr hl _))

/-- C69 is false for pun files: a file that ends with a table whose last orbital lacks coefficients, or with a table of one
orbital only, is never read to its end. -/
theorem C69_refuted_pun (before : List Str) (hb : ∀ l ∈ before, Pun.Plain l) (spin : Spin) (n : Nat) (o : Orbital α)
    (os : List (Orbital α)) (hc : Contains o.header ((lit " 1 ") ++ spin.name ++ (lit " MO ")))
    (hbeta : spin = .beta → ¬ Contains o.header (lit " 1 Alpha MO "))
    (hall : ∀ x ∈ o :: os, IsLine x.header ∧ ∀ r ∈ x.rows, CoefLine r.1 r.2 ∧ r.2 ≠ [])
    (hos : ∀ x ∈ os, Contains x.header (lit " MO OE") ∧ Contains x.header spin.name)
    (hfull : ∀ x ∈ (o :: os).dropLast, x.coefs.length = n)
    (hcut : os = [] ∨ ∀ x ∈ (o :: os).getLast?, x.coefs.length < n)
    (fs : Str → Option Str) (name : Str) (hfit : Fits name) (hname : PlainName (lit ".pun") name)
    (h : fs name = some (unlines before ++ tableText (o :: os))) :
    Hangs (fun k => (readPun fs k name : Res (PunData α))) := by
  intro k
  show readPun fs k name = _
  unfold readPun
  rw [((C70_accepted_partial (α := α) name hfit).2.2.1).2 hname]
  simp only [Res.ok_bind]
  rw [read_eq _ _ _ _ h]
  exact hang_boring_lines _ (fun l hl => ⟨(hb l hl).1, pun_start_plain (hb l hl)⟩)
    (pun_hang spin n o os hc hbeta hall hos hfull hcut []) k

/-! ### examples -/

private theorem plain_a : PlainName (lit ".log") (lit "a.log") ∧ PlainName (lit ".pun") (lit "a.pun") :=
  ⟨⟨[], (lit "a"), [], rfl, .inl rfl, by decide, by decide, by simp⟩, ⟨[], (lit "a"), [], rfl, .inl rfl, by decide, by decide, by simp⟩⟩

private theorem not_contains {s sub : Str} (h : foundSubStrInStr s sub = false) : ¬ Contains s sub := not_found_contains.1 h

/-- A log file whose energy line was broken after the hyphens. -/
example : Hangs (fun n => (readLog (holding (lit "a.log") (lit " Alpha  occ. eigenvalues --\n  -10.2 -0.4\n")) n (lit "a.log") : Res (LogData Int))) :=
  C69_refuted_energies .alpha [] (by simp) (lit " Alpha  occ. eigenvalues --") (lit "  -10.2 -0.4\n") (by unfold IsLine; decide)
    ⟨[], [], rfl⟩ (by
      intro p hp hc
      simp only [announcements, List.mem_cons, List.not_mem_nil, or_false] at hp
      rcases hp with rfl | rfl | rfl | rfl | rfl | rfl
      all_goals first | rfl | exact absurd (found_contains.2 hc) (by decide))
    ⟨not_contains (by decide), not_contains (by decide)⟩ _ _ (by unfold Fits; decide) plain_a.1 rfl

/-- A pun file with a single orbital. -/
example : Hangs (fun n => (readPun (holding (lit "a.pun") (lit " 1 Alpha MO OE=-0.9D+01\n 0.99000000D+00\n")) n (lit "a.pun") : Res (PunData Int))) :=
  C69_refuted_pun (α := Int) [] (by simp) .alpha 1 ⟨(lit " 1 Alpha MO OE=-0.9D+01"), [((lit " 0.99000000D+00"), [0])]⟩ []
    ⟨[], (lit "OE=-0.9D+01"), rfl⟩ (by simp) (by
      intro x hx
      simp only [List.mem_singleton] at hx
      subst hx
      refine ⟨by unfold IsLine; decide, ?_⟩
      intro r hr
      simp only [List.mem_singleton] at hr
      subst hr
      refine ⟨⟨by unfold IsLine; decide, by unfold Fits; decide, not_contains (by decide), [((lit " 0.99000000D+00"), 0)], [], rfl, by decide, ?_, rfl⟩, by simp⟩
      intro f hf
      simp only [List.mem_singleton] at hf
      subst hf
      exact ⟨(lit " 0.99000000"), 'D', (lit "+00"), (lit "0.99000000"), (lit "+00"), 0, 0, rfl, rfl, rfl,
        ⟨[((lit " "), (lit "0.99000000"))], [], rfl, rfl, by simp; decide, by simp, by simp⟩,
        ⟨[([], (lit "+00"))], [], rfl, rfl, by simp; decide, by simp, by simp⟩, by decide, by decide, by decide⟩)
    (by simp) (by simp) (.inl rfl) _ _ (by unfold Fits; decide) plain_a.2 rfl

end Verif.Readers
