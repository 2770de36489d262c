import Verif.Spec.EveryLine
import Verif.Props.RunLine
import Verif.Props.Properties
import Verif.ConcreteLog
/-
Property C124: calc_J on any command line whatsoever, with any files.
-/
namespace Verif.Run
open Strings Readers QC Mat Log Args

section
variable {D : Type} [Args.Dbl D]

/-- **C124 (which files).** On any command line that is understood there is exactly one choice of files. -/
theorem C124_takes (fs : FS) {args : List Str} (hfit : ∀ v ∈ args, v.length + 4 < 2 ^ 63) {as : List Asg} (hu : Understood args as) :
    (∃ r : Str → Option Str, ∀ x ∈ inputFiles, Takes fs as x.1 x.2.1 x.2.2 (r x.1)) ∧
    ∀ r r' : Str → Option Str, (∀ x ∈ inputFiles, Takes fs as x.1 x.2.1 x.2.2 (r x.1)) → (∀ x ∈ inputFiles, Takes fs as x.1 x.2.1 x.2.2 (r' x.1)) →
      ∀ x ∈ inputFiles, r x.1 = r' x.1 := by
  refine ⟨?_, fun r r' h h' x hx => (h x hx).unique (h' x hx)⟩
  letI : Dbl (Option Int) := dblNaN
  obtain ⟨q, hq⟩ := (C59_accepted (D := Option Int) fs args (fun v hv => by unfold Fits; have := hfit v hv; omega)).1.2 ⟨as, hu.reads, hu.said, hu.ok⟩
  obtain ⟨ha, hv⟩ := facts fs args hfit q as hq hu.reads
  obtain ⟨r, hr, -⟩ := prepare_any ha (fun f hf v hv => hfit v (given_mem hu.reads hv)) (type_ok hv)
  exact ⟨r, hr⟩

theorem asked_num {as : List Asg} (hv : ∀ f s k, (f, s, k) ∈ valueFlags → ∀ v ∈ given f as, ValueOk k v) {f s : Str} (hf : (f, s, Kind.onum) ∈ valueFlags) :
    AskedNum as f (numOf as f) := by
  unfold numOf AskedNum
  cases hl : (given f as).getLast? with
  | none => exact rfl
  | some v => exact (intText_intOf (hv f s _ hf v (List.mem_of_getLast? hl))).1

/-- **C124 (parameters).** The parameters prepared from any command line that is understood, or what goes wrong. -/
theorem C124_parameters (fs : FS) {args : List Str} (hfit : ∀ v ∈ args, v.length + 4 < 2 ^ 63) {q : Parser D} {as : List Asg}
    (hq : Args.parse fs Args.calcJ args = .ok q) (hr : Reads args as) {r : Str → Option Str}
    (ht : ∀ x ∈ inputFiles, Takes fs as x.1 x.2.1 x.2.2 (r x.1)) {n1 n2 : Int}
    (a1 : AskedNum as (lit "--orbital_num_1") n1) (a2 : AskedNum as (lit "--orbital_num_2") n2) :
    Args.prepareParameters q = parameters as r n1 n2 := by
  obtain ⟨ha, hv⟩ := facts fs args hfit q as hq hr
  obtain ⟨r', hr', he⟩ := prepare_any ha (fun f hf v hv => hfit v (given_mem hr hv)) (type_ok hv)
  have same : ∀ x ∈ inputFiles, r' x.1 = r x.1 := fun x hx => (hr' x hx).unique (ht x hx)
  have s1 := same (lit "--pun_P", lit "--log_P", [lit ".orb", lit ".7", lit ".pun"]) (by decide)
  have s2 := same (lit "--pun_1", lit "--log_1", [lit ".orb", lit ".7", lit ".pun"]) (by decide)
  have s3 := same (lit "--pun_2", lit "--log_2", [lit ".orb", lit ".7", lit ".pun"]) (by decide)
  have s4 := same (lit "--log_P", lit "--pun_P", [lit ".log"]) (by decide)
  have s5 := same (lit "--log_1", lit "--pun_1", [lit ".log"]) (by decide)
  have s6 := same (lit "--log_2", lit "--pun_2", [lit ".log"]) (by decide)
  have e1 := (asked_num hv (f := lit "--orbital_num_1") (s := lit "-orb_num_1") (by decide)).unique a1
  have e2 := (asked_num hv (f := lit "--orbital_num_2") (s := lit "-orb_num_2") (by decide)).unique a2
  simp only at s1 s2 s3 s4 s5 s6
  rw [he, s1, s2, s3, s4, s5, s6, e1, e2]
  rfl

theorem takes_fits {fs : FS} {args : List Str} (hfit : ∀ v ∈ args, v.length + 4 < 2 ^ 63) {as : List Asg} (hr : Reads args as)
    {f g y : Str} {exts : List Str} (hx : ∀ e ∈ exts, e.length ≤ 4) (h : Takes fs as f g exts (some y)) : Fits y := by
  by_cases hex : ∃ v ∈ given f as, fs v = true
  · have := hfit y (given_mem hr (List.mem_of_getLast? (h.1 hex).symm))
    unfold Fits; omega
  · have hno : ∀ v ∈ given f as, fs v = false := by
      intro v hv
      cases e : fs v with
      | false => rfl
      | true => exact absurd ⟨v, hv, e⟩ hex
    exact (h.2 hno).fits (fun w hw => hfit w (given_mem hr (List.mem_of_getLast? hw))) hx

theorem namedFile_ok {ext y : Str} {r : Option Str} (h : namedFile ext r = .ok y) : r = some y := by
  cases r with
  | none => cases h
  | some x =>
    simp only [namedFile] at h
    split at h
    · cases h; rfl
    · cases h

theorem numbered_ok {t : Str} {n m : Int} (h : numbered t n = .ok m) : m = n := by
  unfold numbered at h
  split at h
  · cases h; rfl
  · cases h

theorem parameters_ok {as : List Asg} {r : Str → Option Str} {n1 n2 : Int} {par : Params.Params} (h : parameters as r n1 n2 = .ok par) :
    r (lit "--pun_P") = some par.punP ∧ r (lit "--pun_1") = some par.pun1 ∧ r (lit "--pun_2") = some par.pun2 ∧
    r (lit "--log_P") = some par.logP ∧ r (lit "--log_1") = some par.log1 ∧ r (lit "--log_2") = some par.log2 ∧
    par.spinP = askedSpin as (lit "--spin_P") ∧ par.spin1 = askedSpin as (lit "--spin_1") ∧ par.spin2 = askedSpin as (lit "--spin_2") := by
  unfold parameters at h
  obtain ⟨pP, h1, h⟩ := Res.bind_eq_ok.1 h
  obtain ⟨p1, h2, h⟩ := Res.bind_eq_ok.1 h
  obtain ⟨p2, h3, h⟩ := Res.bind_eq_ok.1 h
  obtain ⟨lP, h4, h⟩ := Res.bind_eq_ok.1 h
  obtain ⟨l1, h5, h⟩ := Res.bind_eq_ok.1 h
  obtain ⟨l2, h6, h⟩ := Res.bind_eq_ok.1 h
  obtain ⟨m1, h7, h⟩ := Res.bind_eq_ok.1 h
  obtain ⟨m2, h8, h⟩ := Res.bind_eq_ok.1 h
  have h := Res.ok.inj h
  subst h
  exact ⟨namedFile_ok h1, namedFile_ok h2, namedFile_ok h3, namedFile_ok h4, namedFile_ok h5, namedFile_ok h6, rfl, rfl, rfl⟩

end

section
variable {α β : Type} [Zero α] [One α] [Add α] [Sub α] [Mul α] [Div α] [Num α] [DecidableEq β] {D : Type} [Args.Dbl D]

/-- Spins asked for on a command line that is understood. -/
theorem understood_spin {args : List Str} {as : List Asg} (hu : Understood args as) (f : Str) (hf : f ∈ [lit "--spin_P", lit "--spin_1", lit "--spin_2"]) :
    ∃ spin : Log.Spin, askedSpin as f = spin.name := by
  unfold askedSpin
  cases e : (given f as).getLast? with
  | none => exact ⟨.alpha, rfl⟩
  | some v =>
    rcases given_spin hu.reads hu.ok hf v (List.mem_of_getLast? e) with rfl | rfl
    · exact ⟨.alpha, rfl⟩
    · exact ⟨.beta, rfl⟩

/-- What happens on a command line that is understood. -/
theorem understood_does (tos : α → β) {files : Str → Option Str} (hfit : ∀ name text, files name = some text → Fits text)
    {pun : Str → Res (Pun.Known α)} (hpun : ∀ name, PunFile files name (pun name))
    {log : Str → Res (LogLines.Known α × List Int)} (hlog : ∀ name, LogFile files name (log name))
    {args : List Str} (hargs : ∀ v ∈ args, v.length + 4 < 2 ^ 63) {as : List Asg} (hu : Understood args as) {r : Str → Option Str}
    (ht : ∀ x ∈ inputFiles, Takes (fsOf files) as x.1 x.2.1 x.2.2 (r x.1)) {n1 n2 : Int} {spinP spin1 spin2 : Log.Spin}
    (a1 : AskedNum as (lit "--orbital_num_1") n1) (a2 : AskedNum as (lit "--orbital_num_2") n2)
    (sP : askedSpin as (lit "--spin_P") = spinP.name) (s1 : askedSpin as (lit "--spin_1") = spin1.name) (s2 : askedSpin as (lit "--spin_2") = spin2.name) :
    Does (fun fuel => calcJRun D tos files fuel args) (do
        let par ← parameters as r n1 n2
        calcJ tos par spinP spin1 spin2 (pun par.punP) (pun par.pun1) (pun par.pun2) (log par.logP) (log par.log1) (log par.log2)) := by
  obtain ⟨q, hq⟩ := (C59_accepted (D := D) (fsOf files) args (fun v hv => by unfold Fits; have := hargs v hv; omega)).1.2 ⟨as, hu.reads, hu.said, hu.ok⟩
  have hp := C124_parameters (fsOf files) hargs hq hu.reads ht a1 a2
  have const : ∀ x : Res Params.Params, parameters as r n1 n2 = x → (∀ par, x ≠ .ok par) → ∀ fuel,
      (calcJRun D tos files fuel args : Res (Params.Params × Report α)) = (x >>= fun _ => .ub) := by
    intro x hx hne fuel
    unfold calcJRun
    rw [prepareParser_ok, Res.ok_bind, hq, Res.ok_bind, hp, hx]
    cases x with
    | ok par => exact absurd rfl (hne par)
    | _ => rfl
  cases hpar : parameters as r n1 n2 with
  | ok par =>
    rw [Res.ok_bind]
    obtain ⟨f1, f2, f3, f4, f5, f6, t1, t2, t3⟩ := parameters_ok hpar
    have hlen : ∀ x ∈ inputFiles, ∀ e ∈ x.2.2, e.length ≤ 4 := by decide
    have fit : ∀ x ∈ inputFiles, ∀ y, r x.1 = some y → Fits y := fun x hx y hy => by
      have h := ht x hx
      rw [hy] at h
      exact takes_fits hargs hu.reads (hlen x hx) h
    refine C122_run tos files args hq (hp.trans hpar) ?_ (fun name _ text h => hfit name text h) (t1.trans sP) (t2.trans s1) (t3.trans s2)
      (hpun _) (hpun _) (hpun _) (hlog _) (hlog _) (hlog _)
    intro name hn
    simp only [List.mem_cons, List.not_mem_nil, or_false] at hn
    rcases hn with h | h | h | h | h | h <;> rw [h]
    · exact fit (lit "--pun_P", lit "--log_P", [lit ".orb", lit ".7", lit ".pun"]) (by decide) _ f1
    · exact fit (lit "--pun_1", lit "--log_1", [lit ".orb", lit ".7", lit ".pun"]) (by decide) _ f2
    · exact fit (lit "--pun_2", lit "--log_2", [lit ".orb", lit ".7", lit ".pun"]) (by decide) _ f3
    · exact fit (lit "--log_P", lit "--pun_P", [lit ".log"]) (by decide) _ f4
    · exact fit (lit "--log_1", lit "--pun_1", [lit ".log"]) (by decide) _ f5
    · exact fit (lit "--log_2", lit "--pun_2", [lit ".log"]) (by decide) _ f6
  | throw e => exact ⟨by simp, 0, fun fuel _ => const _ hpar (by simp) fuel⟩
  | exit e => exact ⟨by simp, 0, fun fuel _ => const _ hpar (by simp) fuel⟩
  | ub => exact ⟨by simp, 0, fun fuel _ => const _ hpar (by simp) fuel⟩
  | diverge => exact fun fuel => const _ hpar (by simp) fuel

theorem line_exists (tos : α → β) {files : Str → Option Str} (hfit : ∀ name text, files name = some text → Fits text)
    {pun : Str → Res (Pun.Known α)} (hpun : ∀ name, PunFile files name (pun name))
    {log : Str → Res (LogLines.Known α × List Int)} (hlog : ∀ name, LogFile files name (log name))
    {args : List Str} (hargs : ∀ v ∈ args, v.length + 4 < 2 ^ 63) :
    ∃ out, Line tos files pun log args out ∧ Does (fun fuel => calcJRun D tos files fuel args) out := by
  rcases parse_exactly (D := D) (fsOf files) args (fun v hv => by unfold Fits; have := hargs v hv; omega) with
    ⟨as, q, h1, h2, h3, -⟩ | ⟨e, h1, h2, -⟩ | ⟨h1, h2⟩
  · have hu : Understood args as := ⟨h1, h3, h2⟩
    obtain ⟨r, hr⟩ := (C124_takes (fsOf files) hargs hu).1
    have hv : ∀ f s k, (f, s, k) ∈ valueFlags → ∀ v ∈ given f as, ValueOk k v := fun f s k hf => given_ok h1.kinds h2 hf
    have a1 := asked_num hv (f := lit "--orbital_num_1") (s := lit "-orb_num_1") (by decide)
    have a2 := asked_num hv (f := lit "--orbital_num_2") (s := lit "-orb_num_2") (by decide)
    obtain ⟨sP, eP⟩ := understood_spin hu (lit "--spin_P") (by decide)
    obtain ⟨s1, e1⟩ := understood_spin hu (lit "--spin_1") (by decide)
    obtain ⟨s2, e2⟩ := understood_spin hu (lit "--spin_2") (by decide)
    exact ⟨_, .understood hu hr a1 a2 eP e1 e2, understood_does tos hfit hpun hlog hargs hu hr a1 a2 eP e1 e2⟩
  · have run : ∀ fuel, (calcJRun D tos files fuel args : Res (Params.Params × Report α)) = .throw e := by
      intro fuel
      unfold calcJRun
      rw [prepareParser_ok, Res.ok_bind, h1]
      rfl
    refine ⟨.throw e, ?_, by simp, 0, fun fuel _ => run fuel⟩
    rcases h2 with ⟨h2, h3⟩ | h2
    · rw [h3]; exact .nothing h2
    · exact .refused h2
  · have run : ∀ fuel, (calcJRun D tos files fuel args : Res (Params.Params × Report α)) = .exit 0 := by
      intro fuel
      unfold calcJRun
      rw [prepareParser_ok, Res.ok_bind, h1]
      rfl
    refine ⟨.exit 0, ?_, by simp, 0, fun fuel _ => run fuel⟩
    rcases h2 with ⟨g1, g2⟩ | h2
    · exact .info g1 g2
    · exact .version h2

theorem line_does (tos : α → β) {files : Str → Option Str} (hfit : ∀ name text, files name = some text → Fits text)
    {pun : Str → Res (Pun.Known α)} (hpun : ∀ name, PunFile files name (pun name))
    {log : Str → Res (LogLines.Known α × List Int)} (hlog : ∀ name, LogFile files name (log name))
    {args : List Str} (hargs : ∀ v ∈ args, v.length + 4 < 2 ^ 63) {out : Res (Params.Params × Report α)} (h : Line tos files pun log args out) :
    Does (fun fuel => calcJRun D tos files fuel args) out := by
  have hfits : ∀ v ∈ args, Fits v := fun v hv => by unfold Fits; have := hargs v hv; omega
  have hx := (C63_outcomes (D := D) (fsOf files) args hfits).2.2
  have run : ∀ {x : Res (Args.Parser D)} {y : Res (Params.Params × Report α)}, Args.parse (fsOf files) (Args.calcJ (D := D)) args = x →
      ((x >>= fun _ => .ub) = y) → (∀ q, x ≠ .ok q) → y ≠ .diverge →
      Ends (fun fuel => (calcJRun D tos files fuel args : Res (Params.Params × Report α))) y := by
    intro x y h1 h2 h3 h4
    refine ⟨h4, 0, fun fuel _ => ?_⟩
    show calcJRun D tos files fuel args = _
    unfold calcJRun
    rw [prepareParser_ok, Res.ok_bind, h1, ← h2]
    cases x with
    | ok q => exact absurd rfl (h3 q)
    | _ => rfl
  cases h with
  | version h => exact run (hx (.inr h)) rfl (by simp) (by simp)
  | info h1 h2 => exact run (hx (.inl ⟨h1, h2⟩)) rfl (by simp) (by simp)
  | nothing h => subst h; exact run (x := .throw .runtimeError) rfl rfl (by simp) (by simp)
  | @refused e h =>
    have hne : args ≠ [] := by rintro rfl; cases h
    refine run (x := .throw e) ?_ rfl (by simp) (by simp)
    unfold Args.parse
    rw [if_neg hne, refused_loop (D := D) (fsOf files) (args.length + 1) h hfits [] (Args.calcJ (D := D)) 2 (After.init _) (by omega)]
    rfl
  | understood hu hr a1 a2 eP e1 e2 => exact understood_does tos hfit hpun hlog hargs hu hr a1 a2 eP e1 e2

theorem Does.unique {γ : Type} {f : Nat → Res γ} {a b : Res γ} (ha : Does f a) (hb : Does f b) : a = b := by
  have no : ∀ {x : Res γ}, Ends f x → Hangs f → False := by
    rintro x ⟨h1, N, h2⟩ h
    exact h1 ((h2 N (Nat.le_refl _)).symm.trans (h N))
  cases a <;> cases b <;> first | rfl | exact Ends.unique ha hb | exact (no ha hb).elim | exact (no hb ha).elim

/-- **C124.** On any command line, with any files, calc_J does exactly what `Line` says. -/
theorem C124_line (tos : α → β) (files : Str → Option Str) (hfit : ∀ name text, files name = some text → Fits text)
    (pun : Str → Res (Pun.Known α)) (hpun : ∀ name, PunFile files name (pun name))
    (log : Str → Res (LogLines.Known α × List Int)) (hlog : ∀ name, LogFile files name (log name))
    (args : List Str) (hargs : ∀ v ∈ args, v.length + 4 < 2 ^ 63) (out : Res (Params.Params × Report α)) :
    Does (fun fuel => calcJRun D tos files fuel args) out ↔ Line tos files pun log args out := by
  constructor
  · intro h
    obtain ⟨out', h1, h2⟩ := line_exists (D := D) tos hfit hpun hlog hargs
    rw [Does.unique h h2]
    exact h1
  · exact line_does tos hfit hpun hlog hargs

/-- **C124 (totality).** So calc_J does something definite with every command line and all files. -/
theorem C124_total (tos : α → β) (files : Str → Option Str) (hfit : ∀ name text, files name = some text → Fits text)
    (args : List Str) (hargs : ∀ v ∈ args, v.length + 4 < 2 ^ 63) :
    ∃ out : Res (Params.Params × Report α), Does (fun fuel => calcJRun D tos files fuel args) out := by
  obtain ⟨out, -, h⟩ := line_exists (D := D) tos (pun := fun name => (C122_reading (α := α) files name).1.choose)
    (log := fun name => (C122_reading (α := α) files name).2.choose) hfit
    (fun name => (C122_reading (α := α) files name).1.choose_spec) (fun name => (C122_reading (α := α) files name).2.choose_spec) hargs
  exact ⟨out, h⟩

end

/-! ### instances -/

/-- A number that is too large, after a correct beginning. -/
example : Refused [lit "-cp", lit "-orb_num_1", lit "99999999999", lit "-l_1"] .outOfRange := by
  refine .switch (f := lit "--counter_poise") (by decide) (by rintro u us h; cases h; decide)
    (.bad (f := lit "--orbital_num_1") (s := lit "-orb_num_1") (k := .onum) (by decide) (.inr rfl) ?_)
  have h := C67_stoi (lit "99999999999")
  have e : stoi (lit "99999999999") = .throw .outOfRange := by decide +kernel
  by_cases hx : ∃ n, IntText (lit "99999999999") n
  · obtain ⟨n, hn⟩ := hx
    refine .large hn fun hr => ?_
    rw [h.1 n hn hr] at e
    cases e
  · rw [h.2.2 hx] at e
    cases e


/-- A file given twice, the second time one that does not exist: it is taken nevertheless. -/
example : Takes (fun f => f = lit "a.pun" ∨ f = lit "1.pun") [.value (lit "--pun_1") .pun (lit "a.pun"), .value (lit "--pun_1") .pun (lit "b.pun"), .value (lit "--log_1") .log (lit "1.log")]
    (lit "--pun_1") (lit "--log_1") [lit ".orb", lit ".7", lit ".pun"] (some (lit "b.pun")) :=
  ⟨fun _ => by decide, fun h => absurd (h (lit "a.pun") (by decide)) (by decide)⟩

/-- A file with a blank in its name: of `x.pun y.orb`, `x.pun y.7` and `x.pun y.pun` the last exists, the third word is `x.pun`. -/
example : Takes (fun f => f = lit "x.pun y.pun") [.value (lit "--log_1") .log (lit "x.pun y.log")]
    (lit "--pun_1") (lit "--log_1") [lit ".orb", lit ".7", lit ".pun"] (some (lit "x.pun")) := by
  refine ⟨fun h => absurd h (by decide), fun _ => ?_⟩
  refine ⟨[], lit "x.pun y", lit ".log", [lit "x.pun", lit "y.orb", lit "x.pun", lit "y.7", lit "x.pun", lit "y.pun"], ?_, ?_, .inr
    ⟨[lit ".orb", lit ".7"], lit ".pun", [], lit "x.pun", rfl, by decide, by simp, rfl, rfl⟩⟩
  · exact ⟨rfl, .inl rfl, by decide, .inr ⟨lit "log", rfl, by decide⟩⟩
  · exact layout_of (by decide)

end Verif.Run
