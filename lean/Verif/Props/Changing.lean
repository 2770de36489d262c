import Verif.Spec.Changing
import Verif.Props.EveryLine
/-
C127: calc_J while the files change.
-/
namespace Verif.Run
open Strings Readers QC Mat Log Args

section
variable {σ : Type}

/-- Reading at a moment is reading what the file seems to contain, for `fuel ≥ 1` passes. -/
theorem readAt_seems (s : Sections σ) (now : Moment) (name : Str) (fuel : Nat) (d : σ) :
    readAt s now name fuel d = Readers.read s (seems now) name fuel d := by
  unfold readAt Readers.read seems
  cases now.present name with
  | false => rfl
  | true =>
    cases h : now.opens name with
    | some text => simp
    | none =>
      simp only [if_true, Option.getD_none]
      cases fuel with
      | zero => rfl
      | succ n => rfl

end

section
variable {α β : Type} [Zero α] [One α] [Add α] [Sub α] [Mul α] [Div α] [Num α] [DecidableEq β] {D : Type} [Args.Dbl D]

omit [Zero α] [One α] [Add α] [Sub α] [Div α] in
theorem readPunAt_seems (now : Moment) (fuel : Nat) (name : Str) : (readPunAt now fuel name : Res (PunData α)) = readPun (seems now) fuel name := by
  unfold readPunAt readPun; simp only [readAt_seems]

omit [One α] [Add α] [Sub α] [Div α] in
theorem readLogAt_seems (now : Moment) (fuel : Nat) (name : Str) : (readLogAt now fuel name : Res (LogData α)) = readLog (seems now) fuel name := by
  unfold readLogAt readLog; simp only [readAt_seems]

/-- Once the command line is accepted. -/
theorem while_run (tos : α → β) (fs : FS) (when : Nat → Moment) (args : List Str) {q : Args.Parser D} {par : Params.Params}
    (hq : Args.parse fs Args.calcJ args = .ok q) (hpar : Args.prepareParameters q = .ok par)
    (hn : ∀ name ∈ [par.punP, par.pun1, par.pun2, par.logP, par.log1, par.log2], Fits name)
    (ht : ∀ i name text, seems (when i) name = some text → Fits text)
    {spinP spin1 spin2 : Log.Spin} (sP : par.spinP = spinP.name) (s1 : par.spin1 = spin1.name) (s2 : par.spin2 = spin2.name)
    {punP pun1 pun2 : Res (Pun.Known α)} {logP log1 log2 : Res (LogLines.Known α × List Int)}
    (hpP : PunFile (seems (when 0)) par.punP punP) (hp1 : PunFile (seems (when 1)) par.pun1 pun1) (hp2 : PunFile (seems (when 2)) par.pun2 pun2)
    (hlP : LogFile (seems (when 3)) par.logP logP) (hl1 : LogFile (seems (when 4)) par.log1 log1) (hl2 : LogFile (seems (when 5)) par.log2 log2) :
    Does (fun fuel => calcJWhile D tos fs when fuel args) (calcJ tos par spinP spin1 spin2 punP pun1 pun2 logP log1 log2) := by
  have e : (fun fuel => (calcJWhile D tos fs when fuel args : Res (Params.Params × Report α))) = fun fuel => (do
      let prP ← readPun (seems (when 0)) fuel par.punP
      let pr1 ← readPun (seems (when 1)) fuel par.pun1
      let pr2 ← readPun (seems (when 2)) fuel par.pun2
      let lrP ← readLog (seems (when 3)) fuel par.logP
      let lr1 ← readLog (seems (when 4)) fuel par.log1
      let lr2 ← readLog (seems (when 5)) fuel par.log2
      let r ← couplingReport tos par prP pr1 pr2 lrP lr1 lr2
      Res.ok (par, r)) := by
    funext fuel
    simp only [calcJWhile, Args.prepareParser_ok, Res.ok_bind, hq, hpar, readPunAt_seems, readLogAt_seems]
  rw [e]
  unfold calcJ
  refine Comes.bind (readPun_mono _ _) (pun_comes (hn _ (by simp)) (ht _ _) hpP) fun prP dP hP => ?_
  refine Comes.bind (readPun_mono _ _) (pun_comes (hn _ (by simp)) (ht _ _) hp1) fun pr1 d1 h1 => ?_
  refine Comes.bind (readPun_mono _ _) (pun_comes (hn _ (by simp)) (ht _ _) hp2) fun pr2 d2 h2 => ?_
  refine Comes.bind (readLog_mono _ _) (log_comes (hn _ (by simp)) (ht _ _) hlP) fun lrP bP gP => ?_
  refine Comes.bind (readLog_mono _ _) (log_comes (hn _ (by simp)) (ht _ _) hl1) fun lr1 b1 g1 => ?_
  refine Comes.bind (readLog_mono _ _) (log_comes (hn _ (by simp)) (ht _ _) hl2) fun lr2 b2 g2 => ?_
  have := coupling_outcome tos par hP h1 h2 gP.1 g1.1 g2.1 sP s1 s2
  rw [gP.2, g1.2, g2.2] at this
  simp only [this]
  exact Does.const _

theorem while_understood (tos : α → β) {fs : FS} {when : Nat → Moment} (hfit : ∀ i name text, seems (when i) name = some text → Fits text)
    {pun : Nat → Str → Res (Pun.Known α)} (hpun : ∀ i name, PunFile (seems (when i)) name (pun i name))
    {log : Nat → Str → Res (LogLines.Known α × List Int)} (hlog : ∀ i name, LogFile (seems (when i)) name (log i name))
    {args : List Str} (hargs : ∀ v ∈ args, v.length + 4 < 2 ^ 63) {as : List Asg} (hu : Understood args as) {r : Str → Option Str}
    (ht : ∀ x ∈ inputFiles, Takes fs as x.1 x.2.1 x.2.2 (r x.1)) {n1 n2 : Int} {spinP spin1 spin2 : Log.Spin}
    (a1 : AskedNum as (lit "--orbital_num_1") n1) (a2 : AskedNum as (lit "--orbital_num_2") n2)
    (sP : askedSpin as (lit "--spin_P") = spinP.name) (s1 : askedSpin as (lit "--spin_1") = spin1.name) (s2 : askedSpin as (lit "--spin_2") = spin2.name) :
    Does (fun fuel => calcJWhile D tos fs when fuel args) (do
        let par ← parameters as r n1 n2
        calcJ tos par spinP spin1 spin2 (pun 0 par.punP) (pun 1 par.pun1) (pun 2 par.pun2) (log 3 par.logP) (log 4 par.log1) (log 5 par.log2)) := by
  obtain ⟨q, hq⟩ := (C59_accepted (D := D) fs args (fun v hv => by unfold Fits; have := hargs v hv; omega)).1.2 ⟨as, hu.reads, hu.said, hu.ok⟩
  have hp := C124_parameters fs hargs hq hu.reads ht a1 a2
  have const : ∀ x : Res Params.Params, parameters as r n1 n2 = x → (∀ par, x ≠ .ok par) → ∀ fuel,
      (calcJWhile D tos fs when fuel args : Res (Params.Params × Report α)) = (x >>= fun _ => .ub) := by
    intro x hx hne fuel
    unfold calcJWhile
    rw [prepareParser_ok, Res.ok_bind, hq, Res.ok_bind, hp, hx]
    cases x with
    | ok par => exact absurd rfl (hne par)
    | _ => rfl
  cases hpar : parameters as r n1 n2 with
  | ok par =>
    rw [Res.ok_bind]
    obtain ⟨f1, f2, f3, f4, f5, f6, t1, t2, t3⟩ := parameters_ok hpar
    have hlen : ∀ x ∈ inputFiles, ∀ e ∈ x.2.2, e.length ≤ 4 := by decide
    have fit : ∀ x ∈ inputFiles, ∀ y, r x.1 = some y → Fits y := fun x hx y hy => by
      have h := ht x hx
      rw [hy] at h
      exact takes_fits hargs hu.reads (hlen x hx) h
    refine while_run tos fs when args hq (hp.trans hpar) ?_ hfit (t1.trans sP) (t2.trans s1) (t3.trans s2)
      (hpun _ _) (hpun _ _) (hpun _ _) (hlog _ _) (hlog _ _) (hlog _ _)
    intro name hn
    simp only [List.mem_cons, List.not_mem_nil, or_false] at hn
    rcases hn with h | h | h | h | h | h <;> rw [h]
    · exact fit (lit "--pun_P", lit "--log_P", [lit ".orb", lit ".7", lit ".pun"]) (by decide) _ f1
    · exact fit (lit "--pun_1", lit "--log_1", [lit ".orb", lit ".7", lit ".pun"]) (by decide) _ f2
    · exact fit (lit "--pun_2", lit "--log_2", [lit ".orb", lit ".7", lit ".pun"]) (by decide) _ f3
    · exact fit (lit "--log_P", lit "--pun_P", [lit ".log"]) (by decide) _ f4
    · exact fit (lit "--log_1", lit "--pun_1", [lit ".log"]) (by decide) _ f5
    · exact fit (lit "--log_2", lit "--pun_2", [lit ".log"]) (by decide) _ f6
  | throw e => exact ⟨by simp, 0, fun fuel _ => const _ hpar (by simp) fuel⟩
  | exit e => exact ⟨by simp, 0, fun fuel _ => const _ hpar (by simp) fuel⟩
  | ub => exact ⟨by simp, 0, fun fuel _ => const _ hpar (by simp) fuel⟩
  | diverge => exact fun fuel => const _ hpar (by simp) fuel

theorem while_exists (tos : α → β) {fs : FS} {when : Nat → Moment} (hfit : ∀ i name text, seems (when i) name = some text → Fits text)
    {pun : Nat → Str → Res (Pun.Known α)} (hpun : ∀ i name, PunFile (seems (when i)) name (pun i name))
    {log : Nat → Str → Res (LogLines.Known α × List Int)} (hlog : ∀ i name, LogFile (seems (when i)) name (log i name))
    {args : List Str} (hargs : ∀ v ∈ args, v.length + 4 < 2 ^ 63) :
    ∃ out, LineWhile tos fs pun log args out ∧ Does (fun fuel => calcJWhile D tos fs when fuel args) out := by
  rcases parse_exactly (D := D) fs args (fun v hv => by unfold Fits; have := hargs v hv; omega) with
    ⟨as, q, h1, h2, h3, -⟩ | ⟨e, h1, h2, -⟩ | ⟨h1, h2⟩
  · have hu : Understood args as := ⟨h1, h3, h2⟩
    obtain ⟨r, hr⟩ := (C124_takes fs hargs hu).1
    have hv : ∀ f s k, (f, s, k) ∈ valueFlags → ∀ v ∈ given f as, ValueOk k v := fun f s k hf => given_ok h1.kinds h2 hf
    have a1 := asked_num hv (f := lit "--orbital_num_1") (s := lit "-orb_num_1") (by decide)
    have a2 := asked_num hv (f := lit "--orbital_num_2") (s := lit "-orb_num_2") (by decide)
    obtain ⟨sP, eP⟩ := understood_spin hu (lit "--spin_P") (by decide)
    obtain ⟨s1, e1⟩ := understood_spin hu (lit "--spin_1") (by decide)
    obtain ⟨s2, e2⟩ := understood_spin hu (lit "--spin_2") (by decide)
    exact ⟨_, .understood hu hr a1 a2 eP e1 e2, while_understood tos hfit hpun hlog hargs hu hr a1 a2 eP e1 e2⟩
  · have run : ∀ fuel, (calcJWhile D tos fs when fuel args : Res (Params.Params × Report α)) = .throw e := by
      intro fuel
      unfold calcJWhile
      rw [prepareParser_ok, Res.ok_bind, h1]
      rfl
    refine ⟨.throw e, ?_, by simp, 0, fun fuel _ => run fuel⟩
    rcases h2 with ⟨h2, h3⟩ | h2
    · rw [h3]; exact .nothing h2
    · exact .refused h2
  · have run : ∀ fuel, (calcJWhile D tos fs when fuel args : Res (Params.Params × Report α)) = .exit 0 := by
      intro fuel
      unfold calcJWhile
      rw [prepareParser_ok, Res.ok_bind, h1]
      rfl
    refine ⟨.exit 0, ?_, by simp, 0, fun fuel _ => run fuel⟩
    rcases h2 with ⟨g1, g2⟩ | h2
    · exact .info g1 g2
    · exact .version h2

theorem while_does (tos : α → β) {fs : FS} {when : Nat → Moment} (hfit : ∀ i name text, seems (when i) name = some text → Fits text)
    {pun : Nat → Str → Res (Pun.Known α)} (hpun : ∀ i name, PunFile (seems (when i)) name (pun i name))
    {log : Nat → Str → Res (LogLines.Known α × List Int)} (hlog : ∀ i name, LogFile (seems (when i)) name (log i name))
    {args : List Str} (hargs : ∀ v ∈ args, v.length + 4 < 2 ^ 63) {out : Res (Params.Params × Report α)} (h : LineWhile tos fs pun log args out) :
    Does (fun fuel => calcJWhile D tos fs when fuel args) out := by
  have hfits : ∀ v ∈ args, Fits v := fun v hv => by unfold Fits; have := hargs v hv; omega
  have hx := (C63_outcomes (D := D) fs args hfits).2.2
  have run : ∀ {x : Res (Args.Parser D)} {y : Res (Params.Params × Report α)}, Args.parse fs (Args.calcJ (D := D)) args = x →
      ((x >>= fun _ => .ub) = y) → (∀ q, x ≠ .ok q) → y ≠ .diverge →
      Ends (fun fuel => (calcJWhile D tos fs when fuel args : Res (Params.Params × Report α))) y := by
    intro x y h1 h2 h3 h4
    refine ⟨h4, 0, fun fuel _ => ?_⟩
    show calcJWhile D tos fs when fuel args = _
    unfold calcJWhile
    rw [prepareParser_ok, Res.ok_bind, h1, ← h2]
    cases x with
    | ok q => exact absurd rfl (h3 q)
    | _ => rfl
  cases h with
  | version h => exact run (hx (.inr h)) rfl (by simp) (by simp)
  | info h1 h2 => exact run (hx (.inl ⟨h1, h2⟩)) rfl (by simp) (by simp)
  | nothing h => subst h; exact run (x := .throw .runtimeError) rfl rfl (by simp) (by simp)
  | @refused e h =>
    have hne : args ≠ [] := by rintro rfl; cases h
    refine run (x := .throw e) ?_ rfl (by simp) (by simp)
    unfold Args.parse
    rw [if_neg hne, refused_loop (D := D) fs (args.length + 1) h hfits [] (Args.calcJ (D := D)) 2 (After.init _) (by omega)]
    rfl
  | understood hu hr a1 a2 eP e1 e2 => exact while_understood tos hfit hpun hlog hargs hu hr a1 a2 eP e1 e2

/-- **C127.** On any command line, whatever happens to the files meanwhile, calc_J does exactly what `LineWhile` says. -/
theorem C127_line (tos : α → β) (fs : FS) (when : Nat → Moment) (hfit : ∀ i name text, seems (when i) name = some text → Fits text)
    (pun : Nat → Str → Res (Pun.Known α)) (hpun : ∀ i name, PunFile (seems (when i)) name (pun i name))
    (log : Nat → Str → Res (LogLines.Known α × List Int)) (hlog : ∀ i name, LogFile (seems (when i)) name (log i name))
    (args : List Str) (hargs : ∀ v ∈ args, v.length + 4 < 2 ^ 63) (out : Res (Params.Params × Report α)) :
    Does (fun fuel => calcJWhile D tos fs when fuel args) out ↔ LineWhile tos fs pun log args out := by
  constructor
  · intro h
    obtain ⟨out', h1, h2⟩ := while_exists (D := D) tos (fs := fs) hfit hpun hlog hargs
    rw [Does.unique h h2]
    exact h1
  · exact while_does tos hfit hpun hlog hargs

/-- **C127 (nothing changes).** If every file stays as it was while the command line was parsed and can be opened, the run is that of the
other claims. -/
theorem C127_still (tos : α → β) (files : Str → Option Str) (when : Nat → Moment)
    (h : ∀ i, (when i).present = (fun name => (files name).isSome) ∧ (when i).opens = files) (fuel : Nat) (args : List Str) :
    calcJWhile D tos (fun name => (files name).isSome) when fuel args = calcJRun D tos files fuel args := by
  have e : ∀ i, seems (when i) = files := by
    intro i
    funext name
    unfold seems
    rw [(h i).1, (h i).2]
    cases hf : files name <;> simp [hf]
  unfold calcJWhile calcJRun readFiles
  simp only [readPunAt_seems, readLogAt_seems, e, bind_assoc, Res.ok_bind]
  rfl

/-- **C127 (what matters).** Two runs with the same command line that see the same files while it is parsed come out the same, if each of
the six files taken is as good as the same at the moment it is read: there or not there both times, and with the same text or, if it cannot be
opened, no text. -/
theorem C127_matters (tos : α → β) (fs : FS) (now now' : Nat → Moment) (args : List Str)
    (h : ∀ q par, Args.parse fs (Args.calcJ (D := D)) args = .ok q → Args.prepareParameters q = .ok par →
      ∀ x ∈ [(0, par.punP), (1, par.pun1), (2, par.pun2), (3, par.logP), (4, par.log1), (5, par.log2)],
        (now x.1).present x.2 = (now' x.1).present x.2 ∧
        ((now x.1).present x.2 = true → ((now x.1).opens x.2).getD [] = ((now' x.1).opens x.2).getD [])) (fuel : Nat) :
    (calcJWhile D tos fs now fuel args : Res (Params.Params × Report α)) = calcJWhile D tos fs now' fuel args := by
  unfold calcJWhile
  rw [prepareParser_ok]
  simp only [Res.ok_bind]
  cases hq : Args.parse fs (Args.calcJ (D := D)) args with
  | ok q =>
    simp only [Res.ok_bind]
    cases hp : Args.prepareParameters q with
    | ok par =>
      simp only [Res.ok_bind, readPunAt_seems, readLogAt_seems]
      have key : ∀ x ∈ [(0, par.punP), (1, par.pun1), (2, par.pun2), (3, par.logP), (4, par.log1), (5, par.log2)],
          seems (now x.1) x.2 = seems (now' x.1) x.2 := by
        intro x hx
        obtain ⟨h1, h2⟩ := h q par hq hp x hx
        unfold seems
        rw [← h1]
        cases hb : (now x.1).present x.2 with
        | false => rfl
        | true => rw [if_pos rfl, if_pos rfl, h2 hb]
      have rd : ∀ {σ : Type} (s : Sections σ) {fs fs' : Str → Option Str} {name : Str} (d : σ), fs name = fs' name →
          Readers.read s fs name fuel d = Readers.read s fs' name fuel d := by
        intro σ s fs fs' name d e
        unfold Readers.read
        rw [e]
      have rp : ∀ i name, seems (now i) name = seems (now' i) name →
          (readPun (seems (now i)) fuel name : Res (PunData α)) = readPun (seems (now' i)) fuel name := by
        intro i name e
        unfold readPun
        rw [rd _ _ e]
      have rl : ∀ i name, seems (now i) name = seems (now' i) name →
          (readLog (seems (now i)) fuel name : Res (LogData α)) = readLog (seems (now' i)) fuel name := by
        intro i name e
        unfold readLog
        rw [rd _ _ e]
      rw [rp 0 par.punP (key (0, par.punP) (by simp)), rp 1 par.pun1 (key (1, par.pun1) (by simp)), rp 2 par.pun2 (key (2, par.pun2) (by simp)),
        rl 3 par.logP (key (3, par.logP) (by simp)), rl 4 par.log1 (key (4, par.log1) (by simp)), rl 5 par.log2 (key (5, par.log2) (by simp))]
    | _ => rfl
  | _ => rfl

omit [Zero α] [One α] [Add α] [Sub α] [Div α] in
theorem readPunAt_unopened {now : Moment} {fuel : Nat} {name : Str} {d : PunData α} (h : (readPunAt now fuel name : Res (PunData α)) = .ok d) :
    now.present name = true ∧ (now.opens name = none → d = []) := by
  unfold readPunAt at h
  obtain ⟨_, -, h⟩ := Res.bind_eq_ok.1 h
  unfold readAt at h
  cases hp : now.present name with
  | false => rw [hp] at h; cases h
  | true =>
    refine ⟨rfl, fun ho => ?_⟩
    rw [hp, ho] at h
    cases fuel with
    | zero => cases h
    | succ n => exact (Res.ok.inj h).symm

omit [One α] [Add α] [Sub α] [Div α] in
theorem readLogAt_unopened {now : Moment} {fuel : Nat} {name : Str} {d : LogData α} (h : (readLogAt now fuel name : Res (LogData α)) = .ok d) :
    now.present name = true ∧ (now.opens name = none → d = LogData.empty) := by
  unfold readLogAt at h
  obtain ⟨_, -, h⟩ := Res.bind_eq_ok.1 h
  unfold readAt at h
  cases hp : now.present name with
  | false => rw [hp] at h; cases h
  | true =>
    refine ⟨rfl, fun ho => ?_⟩
    rw [hp, ho] at h
    cases fuel with
    | zero => cases h
    | succ n => exact (Res.ok.inj h).symm

/-- **C127 (numbers).** calc_J prints numbers only if each of the six files was there and could be opened when its turn came. -/
theorem C127_success (tos : α → β) (fs : FS) (when : Nat → Moment) (fuel : Nat) (args : List Str) {par : Params.Params} {rep : Report α}
    (h : calcJWhile D tos fs when fuel args = .ok (par, rep)) :
    ∀ x ∈ [(0, par.punP), (1, par.pun1), (2, par.pun2), (3, par.logP), (4, par.log1), (5, par.log2)],
      (when x.1).present x.2 = true ∧ ∃ text, (when x.1).opens x.2 = some text := by
  unfold calcJWhile at h
  rw [prepareParser_ok, Res.ok_bind] at h
  obtain ⟨q, -, h⟩ := Res.bind_eq_ok.1 h
  obtain ⟨par', -, h⟩ := Res.bind_eq_ok.1 h
  obtain ⟨prP, h1, h⟩ := Res.bind_eq_ok.1 h
  obtain ⟨pr1, h2, h⟩ := Res.bind_eq_ok.1 h
  obtain ⟨pr2, h3, h⟩ := Res.bind_eq_ok.1 h
  obtain ⟨lrP, h4, h⟩ := Res.bind_eq_ok.1 h
  obtain ⟨lr1, h5, h⟩ := Res.bind_eq_ok.1 h
  obtain ⟨lr2, h6, h⟩ := Res.bind_eq_ok.1 h
  obtain ⟨r, hr, h⟩ := Res.bind_eq_ok.1 h
  have h := Res.ok.inj h
  have hpar : par' = par := congrArg Prod.fst h
  subst hpar
  have g1 := readPunAt_unopened h1
  have g2 := readPunAt_unopened h2
  have g3 := readPunAt_unopened h3
  have g4 := readLogAt_unopened h4
  have g5 := readLogAt_unopened h5
  have g6 := readLogAt_unopened h6
  unfold couplingReport at hr
  obtain ⟨S, k4, hr⟩ := Res.bind_eq_ok.1 hr
  obtain ⟨_, k1, hr⟩ := Res.bind_eq_ok.1 hr
  obtain ⟨_, -, hr⟩ := Res.bind_eq_ok.1 hr
  obtain ⟨_, -, hr⟩ := Res.bind_eq_ok.1 hr
  obtain ⟨_, k5, hr⟩ := Res.bind_eq_ok.1 hr
  obtain ⟨_, k2, hr⟩ := Res.bind_eq_ok.1 hr
  obtain ⟨_, -, hr⟩ := Res.bind_eq_ok.1 hr
  obtain ⟨_, -, hr⟩ := Res.bind_eq_ok.1 hr
  obtain ⟨_, k6, hr⟩ := Res.bind_eq_ok.1 hr
  obtain ⟨_, k3, hr⟩ := Res.bind_eq_ok.1 hr
  clear hr
  have some_of : ∀ {o : Option Str}, o ≠ none → ∃ t, o = some t := by
    intro o ho
    cases o with
    | none => exact absurd rfl ho
    | some t => exact ⟨t, rfl⟩
  intro x hx
  simp only [List.mem_cons, List.not_mem_nil, or_false] at hx
  rcases hx with rfl | rfl | rfl | rfl | rfl | rfl
  · exact ⟨g1.1, some_of fun e => by rw [g1.2 e] at k1; cases k1⟩
  · exact ⟨g2.1, some_of fun e => by rw [g2.2 e] at k2; cases k2⟩
  · exact ⟨g3.1, some_of fun e => by rw [g3.2 e] at k3; cases k3⟩
  · exact ⟨g4.1, some_of fun e => by rw [g4.2 e] at k4; cases k4⟩
  · exact ⟨g5.1, some_of fun e => by rw [g5.2 e] at k5; cases k5⟩
  · exact ⟨g6.1, some_of fun e => by rw [g6.2 e] at k6; cases k6⟩

/-- **C127 (a log file that cannot be opened).** If the dimer's log file is there but cannot be opened, and the other five files are read,
the behaviour is undefined: there is no error message. -/
theorem C127_unopened (tos : α → β) (fs : FS) (when : Nat → Moment) (args : List Str) {q : Args.Parser D} {par : Params.Params}
    (hq : Args.parse fs Args.calcJ args = .ok q) (hpar : Args.prepareParameters q = .ok par)
    (h3 : (when 3).present par.logP = true) (h3' : (when 3).opens par.logP = none) (hname : PlainName (lit ".log") par.logP) (hl : Fits par.logP)
    {prP pr1 pr2 : PunData α} {lr1 lr2 : LogData α}
    (hpP : Ends (fun fuel => readPunAt (when 0) fuel par.punP) (.ok prP)) (hp1 : Ends (fun fuel => readPunAt (when 1) fuel par.pun1) (.ok pr1))
    (hp2 : Ends (fun fuel => readPunAt (when 2) fuel par.pun2) (.ok pr2))
    (hl1 : Ends (fun fuel => readLogAt (when 4) fuel par.log1) (.ok lr1)) (hl2 : Ends (fun fuel => readLogAt (when 5) fuel par.log2) (.ok lr2)) :
    Ends (fun fuel => (calcJWhile D tos fs when fuel args : Res (Params.Params × Report α))) .ub := by
  obtain ⟨-, N1, e1⟩ := hpP
  obtain ⟨-, N2, e2⟩ := hp1
  obtain ⟨-, N3, e3⟩ := hp2
  obtain ⟨-, N5, e5⟩ := hl1
  obtain ⟨-, N6, e6⟩ := hl2
  refine ⟨by simp, N1 + N2 + N3 + N5 + N6 + 1, fun fuel hf => ?_⟩
  simp only at e1 e2 e3 e5 e6
  have e4 : (readLogAt (when 3) fuel par.logP : Res (LogData α)) = .ok LogData.empty := by
    unfold readLogAt readAt
    rw [(C70_accepted_partial (α := α) par.logP hl).1.2 hname, Res.ok_bind, h3, if_pos rfl, h3']
    cases fuel with
    | zero => omega
    | succ n => rfl
  show calcJWhile D tos fs when fuel args = _
  unfold calcJWhile
  rw [prepareParser_ok, Res.ok_bind, hq, Res.ok_bind, hpar, Res.ok_bind, e1 _ (by omega), Res.ok_bind, e2 _ (by omega), Res.ok_bind,
    e3 _ (by omega), Res.ok_bind, e4, Res.ok_bind, e5 _ (by omega), Res.ok_bind, e6 _ (by omega), Res.ok_bind]
  rfl

end
end Verif.Run
