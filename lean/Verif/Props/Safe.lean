import Verif.SafeJob
/-
Property C80: undefined behaviour of calc_J.
-/
namespace Verif
open Strings Readers QC Mat Job Log Pun

section
variable {α β : Type} [Field α] [Num α] [DecidableEq β] {D : Type} [Args.Dbl D]

omit [Field α] in
/-- C80 (readers): whatever the name and the contents of a file, constructing a reader for it and reading it runs into no undefined
behaviour. -/
theorem C80_readers [Field α] (files : Str → Option Str) (fuel : Nat) (name : Str) :
    (readLog files fuel name : Res (LogData α)) ≠ .ub ∧ (readPun files fuel name : Res (PunData α)) ≠ .ub :=
  ⟨(readLog_safe files fuel name).1, (readPun_safe files fuel name).1⟩

/-- C80 (what can go wrong): the arguments (each shorter than 2^63 characters) and all files are arbitrary. If calc_J runs into
undefined behaviour, then its arguments were accepted, all six files were read, and either the dimer's log file has no overlap table, or
all three log files have tables of populations and some atom of a monomer is not found where it is looked for (or a log file lists
positions for more atoms than it has populations for, or the monomers have more atoms than the dimer). -/
theorem C80_causes_partial (tos : α → β) (files : Str → Option Str) (fuel : Nat) (args : List Str) (hfit : ∀ v ∈ args, Fits v)
    (h : calcJMain D tos files fuel args = .ub) :
    ∃ (q : Args.Parser D) (par : Params.Params) (prP pr1 pr2 : PunData α) (lrP lr1 lr2 : LogData α),
      Args.parse (fsOf files) Args.calcJ args = .ok q ∧ Args.prepareParameters q = .ok par ∧
      readPun files fuel par.punP = .ok prP ∧ readPun files fuel par.pun1 = .ok pr1 ∧ readPun files fuel par.pun2 = .ok pr2 ∧
      readLog files fuel par.logP = .ok lrP ∧ readLog files fuel par.log1 = .ok lr1 ∧ readLog files fuel par.log2 = .ok lr2 ∧
      (lrP.getOverlapMatrix = .ub ∨
        (HavePopulations lrP lr1 lr2 ∧ ∃ rows1 rows2 rowsP, Positions lr1.getCoords rows1 ∧ Positions lr2.getCoords rows2 ∧
          Positions lrP.getCoords rowsP ∧
          ¬ AtomsFound tos par.counterPoise rows1 rows2 rowsP lr2.getBasisFuncCount.length lrP.getBasisFuncCount.length)) := by
  have step : ∀ {γ δ : Type} {x : Res γ} {f : γ → Res δ}, x ≠ .ub → (x >>= f) = .ub → ∃ a, x = .ok a ∧ f a = .ub := by
    intro γ δ x f hx hb
    cases x with
    | ok a => exact ⟨a, rfl, hb⟩
    | ub => exact absurd rfl hx
    | throw e => cases hb
    | exit c => cases hb
    | diverge => cases hb
  rw [calcJMain_def] at h; unfold readFiles at h
  simp only [Args.prepareParser_ok, Res.ok_bind] at h
  obtain ⟨q, eq, h⟩ := step (Args.parse_safe (D := D) (fsOf files) args hfit).1 h
  obtain ⟨par, epar, h⟩ := step (Args.prepareParameters_safe q).1 h
  simp only [bind_assoc, Res.ok_bind] at h
  obtain ⟨prP, eprP, h⟩ := step (readPun_safe files fuel par.punP).1 h
  obtain ⟨pr1, epr1, h⟩ := step (readPun_safe files fuel par.pun1).1 h
  obtain ⟨pr2, epr2, h⟩ := step (readPun_safe files fuel par.pun2).1 h
  obtain ⟨lrP, elrP, h⟩ := step (readLog_safe files fuel par.logP).1 h
  obtain ⟨lr1, elr1, h⟩ := step (readLog_safe files fuel par.log1).1 h
  obtain ⟨lr2, elr2, h⟩ := step (readLog_safe files fuel par.log2).1 h
  refine ⟨q, par, prP, pr1, pr2, lrP, lr1, lr2, eq, epar, eprP, epr1, epr2, elrP, elr1, elr2, ?_⟩
  by_cases hS : lrP.getOverlapMatrix = .ub
  · exact .inl hS
  · right
    apply Classical.byContradiction
    intro hn
    refine (coupling_safe tos par ((readPun_safe _ _ _).2 _ eprP) ((readPun_safe _ _ _).2 _ epr1) ((readPun_safe _ _ _).2 _ epr2)
      ((readLog_shape _ _ _).2 _ elrP).1 ((readLog_shape _ _ _).2 _ elrP).2 ((readLog_shape _ _ _).2 _ elr1).2
      ((readLog_shape _ _ _).2 _ elr2).2 hS ?_).1 h
    intro hp rows1 rows2 rowsP p1 p2 pP
    apply Classical.byContradiction
    intro hf
    exact hn ⟨hp, rows1, rows2, rowsP, p1, p2, pP, hf⟩

/-- C80 is false (no overlap table): all files are well formed, but the dimer's log file has no overlap table. Nothing tells the user;
calc_J works with a pointer that was never set. -/
theorem C80_refuted_overlap (tos : α → β) (files : Str → Option Str) (args : List Str) {q : Args.Parser D} {par : Params.Params}
    (hq : Args.parse (fsOf files) Args.calcJ args = .ok q) (hpar : Args.prepareParameters q = .ok par)
    {oP o1 o2 : Output α} (hP : Stored files par.punP par.logP oP) (h1 : Stored files par.pun1 par.log1 o1)
    (h2 : Stored files par.pun2 par.log2 o2) (hS : lastOverlap oP.log = none) :
    Ends (fun fuel => calcJMain D tos files fuel args) .ub := by
  obtain ⟨prP, eprP, -⟩ := stored_pun hP
  obtain ⟨pr1, epr1, -⟩ := stored_pun h1
  obtain ⟨pr2, epr2, -⟩ := stored_pun h2
  obtain ⟨lr1, elr1, -⟩ := stored_log h1
  obtain ⟨lr2, elr2, -⟩ := stored_log h2
  obtain ⟨lrP, he, elrP⟩ := log_reads files par.logP hP.logFit hP.logPlain oP.log oP.tail hP.log hP.logText
  refine job_ends tos files args hq hpar eprP epr1 epr2 elrP elr1 elr2 (by simp) ?_
  have : lrP.getOverlapMatrix = .ub := by
    rcases he.S with ⟨-, h2⟩ | ⟨n', S', m, h1, -⟩
    · unfold LogData.getOverlapMatrix; rw [h2]; rfl
    · rw [h1] at hS; cases hS
  rw [Verif.coupling_def]
  rw [this]; rfl

/-- C80 is false (an atom that is not found): the files are well formed and complete, but one atom of a monomer looks like no atom of
the dimer. Then calc_J reads outside the list of blocks or loops forever; it never reports the mistake. No counterpoise. -/
theorem C80_refuted_atom (tos : α → β) (files : Str → Option Str) (args : List Str) {q : Args.Parser D} {par : Params.Params}
    (hq : Args.parse (fsOf files) Args.calcJ args = .ok q) (hpar : Args.prepareParameters q = .ok par) (cp : par.counterPoise = false)
    {oP o1 o2 : Output α} (hP : Stored files par.punP par.logP oP) (h1 : Stored files par.pun1 par.log1 o1)
    (h2 : Stored files par.pun2 par.log2 o2)
    {spinP spin1 spin2 : Log.Spin} (sP : par.spinP = spinP.name) (s1 : par.spin1 = spin1.name) (s2 : par.spin2 = spin2.name)
    {orbsP orbs1 orbs2 : List (Orbital α)} {n : Nat} {n1 n2 : Int} {esP es1 es2 : List EnergyLine}
    (bP : Orbitals oP spinP orbsP n esP) (b1 : Orbitals o1 spin1 orbs1 n1 es1) (b2 : Orbitals o2 spin2 orbs2 n2 es2)
    (hn : 1 ≤ n) (hn1 : 1 ≤ n1) (hn2 : 1 ≤ n2) (hM : orbsP.length = (energies esP).length)
    {S : Nat → Nat → α} (hS : lastOverlap oP.log = some (n, S))
    {rowsP rows1 rows2 : List (α × α × α)} (xP : lastCoords oP.log = some rowsP) (x1 : lastCoords o1.log = some rows1)
    (x2 : lastCoords o2.log = some rows2) (hc : n1 + n2 ≤ n)
    {basis : List Int} (hb : ∀ b ∈ basis, 1 ≤ b) (hsum : n = basis.sum) (ne1 : rows1 ≠ []) (ne2 : rows2 ≠ []) (neP : rowsP ≠ [])
    (cntP : BasisCounts oP basis) (cnt1 : ∃ counts, BasisCounts o1 counts ∧ counts ≠ []) (cnt2 : ∃ counts, BasisCounts o2 counts ∧ counts ≠ [])
    {x : α × α × α} (hx : x ∈ rows1 ++ rows2) (hlost : ∀ y ∈ rowsP, ¬ Alike tos x y) :
    Ends (fun fuel => calcJMain D tos files fuel args) .ub ∨ ∃ N, ∀ fuel, N ≤ fuel → calcJMain D tos files fuel args = .diverge := by
  obtain ⟨prP, eprP, gP⟩ := stored_pun hP
  obtain ⟨pr1, epr1, g1⟩ := stored_pun h1
  obtain ⟨pr2, epr2, g2⟩ := stored_pun h2
  obtain ⟨lrP, elrP, lP, lS, lx, lb, lp⟩ := stored_log hP
  obtain ⟨lr1, elr1, l1, -, lx1, lb1, lp1⟩ := stored_log h1
  obtain ⟨lr2, elr2, l2, -, lx2, lb2, lp2⟩ := stored_log h2
  obtain ⟨coefP, ecP, vP⟩ := gP _ _ _ _ bP (by omega)
  obtain ⟨coef1, ec1, v1⟩ := g1 _ _ _ _ b1 hn1
  obtain ⟨coef2, ec2, v2⟩ := g2 _ _ _ _ b2 hn2
  obtain ⟨eP, -⟩ := lP _ _ _ _ bP
  obtain ⟨e1, f1⟩ := l1 _ _ _ _ b1
  obtain ⟨e2, f2⟩ := l2 _ _ _ _ b2
  obtain ⟨Sm, eS, vS⟩ := lS _ _ hS
  obtain ⟨mP, exP, wP⟩ := coords_ok rowsP
  obtain ⟨m1, ex1, w1⟩ := coords_ok rows1
  obtain ⟨m2, ex2, w2⟩ := coords_ok rows2
  have kP : CoordsOf mP rowsP := ⟨wP.1, wP.2.1, wP.2.2.1, wP.2.2.2.1, wP.2.2.2.2⟩
  have k1 : CoordsOf m1 rows1 := ⟨w1.1, w1.2.1, w1.2.2.1, w1.2.2.2.1, w1.2.2.2.2⟩
  have k2 : CoordsOf m2 rows2 := ⟨w2.1, w2.2.1, w2.2.2.1, w2.2.2.2.1, w2.2.2.2.2⟩
  rw [← lx _ xP] at exP
  rw [← lx1 _ x1] at ex1
  rw [← lx2 _ x2] at ex2
  have hne : (energies esP).map (Num.atof (α := α)) ≠ [] := by
    intro h; rw [List.map_eq_nil_iff] at h; rw [h, List.length_nil] at hM; have := vP.pos.1; omega
  obtain ⟨oe, eoe, -⟩ := ofVec_vector _ hne
  have qP := lb _ cntP
  obtain ⟨counts1, c1, c1ne⟩ := cnt1
  obtain ⟨counts2, c2, c2ne⟩ := cnt2
  have q1 := lb1 _ c1
  have q2 := lb2 _ c2
  have hbne : basis ≠ [] := by rintro rfl; simp at hsum; omega
  have key : Verif.coupling tos par prP pr1 pr2 lrP lr1 lr2 = .ub ∨ Verif.coupling tos par prP pr1 pr2 lrP lr1 lr2 = .diverge := by
    rw [coupling_eq tos par eS (by rw [sP]; exact ecP) (by rw [s1]; exact ec1) (by rw [s2]; exact ec2) (by rw [sP]; exact eP)
      (by rw [s1]; exact e1) (by rw [s2]; exact e2) (by rw [s1]; exact f1) (by rw [s2]; exact f2) eoe ex1 ex2 exP ?_, if_pos ?_]
    · rw [qP, q2, cp]
      unfold TransferComplex.unscramble
      simp only [Bool.false_eq_true, if_false]
      have wf : ∀ {m : Mat α} {rows : List (α × α × α)}, CoordsOf m rows → rows ≠ [] → WF m := by
        intro m rows h hl
        have := List.length_pos_iff.2 hl
        exact ⟨h.init, by have := h.rows; omega, by have := h.cols; omega, by have := h.shel; omega⟩
      have lost : ∀ {m : Mat α} {rows : List (α × α × α)} {v : List Int}, CoordsOf m rows → x ∈ rows → (v.length : Int) = m.cols →
          (∀ (t : Nat) (ht : t < v.length),
            (v[t] = -1 ∧ (∀ ii, 1 ≤ ii → ii ≤ mP.cols → ¬ ColPrintsLike tos m mP (t + 1) ii)) ∨
            (1 ≤ v[t] ∧ v[t] ≤ mP.cols ∧ ColPrintsLike tos m mP (t + 1) v[t] ∧
              ∀ ii, v[t] < ii → ii ≤ mP.cols → ¬ ColPrintsLike tos m mP (t + 1) ii)) → (-1 : Int) ∈ v := by
        intro m rows v hk hx hl hv
        obtain ⟨k, hk', rfl⟩ := List.getElem_of_mem hx
        rw [hk.cols] at hl
        rcases hv k (by omega) with ⟨hm, -⟩ | ⟨p1, p2, p3, -⟩
        · rw [← hm]; exact List.getElem_mem _
        · rw [kP.cols] at p2
          rw [hk.like kP (by omega) (by omega) p1 p2] at p3
          have lt : (v[k]'(by omega) - 1).toNat < rowsP.length := by omega
          refine absurd ?_ (hlost _ (List.getElem_mem lt))
          simpa using p3
      obtain ⟨v, ev, hl, hv⟩ := C22_matchCol tos (wf k1 ne1) (wf kP neP) k1.shel kP.shel (by rw [k1.rows, kP.rows])
      obtain ⟨w, ew, hl', hw⟩ := C22_matchCol tos (wf k2 ne2) (wf kP neP) k2.shel kP.shel (by rw [k2.rows, kP.rows])
      simp only [ev, ew, Res.ok_bind]
      have hm : (-1 : Int) ∈ v ++ w := by
        rcases List.mem_append.1 hx with hx | hx
        · exact List.mem_append.2 (.inl (lost k1 hx hl hv))
        · exact List.mem_append.2 (.inr (lost k2 hx hl' hw))
      rcases (C26_refuted vP.wf vP.shel v w basis hb (by rw [vP.cols]; exact hsum.symm) (-1) ⟨hm, .inl (by omega)⟩).1 with e | e
      · left; rw [e]; rfl
      · right; rw [e]; rfl
    · rw [qP, q1, q2]
      exact ⟨fun h => c1ne (List.eq_nil_of_length_eq_zero h), fun h => c2ne (List.eq_nil_of_length_eq_zero h),
        fun h => hbne (List.eq_nil_of_length_eq_zero h)⟩
    · rw [vS.cols, vP.cols, v1.cols, v2.cols, cp]
      exact ⟨rfl, by simpa using hc⟩
  rcases key with e | e
  · exact .inl (job_ends tos files args hq hpar eprP epr1 epr2 elrP elr1 elr2 (by simp) e)
  · right
    obtain ⟨-, n1, e1⟩ := eprP
    obtain ⟨-, n2, e2⟩ := epr1
    obtain ⟨-, n3, e3⟩ := epr2
    obtain ⟨-, n4, e4⟩ := elrP
    obtain ⟨-, n5, e5⟩ := elr1
    obtain ⟨-, n6, e6⟩ := elr2
    refine ⟨n1 + n2 + n3 + n4 + n5 + n6, fun fuel hf => ?_⟩
    have f1 := e1 fuel (by omega)
    have f2 := e2 fuel (by omega)
    have f3 := e3 fuel (by omega)
    have f4 := e4 fuel (by omega)
    have f5 := e5 fuel (by omega)
    have f6 := e6 fuel (by omega)
    rw [calcJMain_def]; unfold readFiles
    simp only at f1 f2 f3 f4 f5 f6
    simp only [Args.prepareParser_ok, Res.ok_bind, hq, hpar, f1, f2, f3, f4, f5, f6]
    exact e

end
end Verif
