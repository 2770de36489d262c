import Verif.Props.Run
import Verif.Props.EndToEnd
/-
Property C122, from the command line.
-/
namespace Verif.Run
open Strings Readers QC Mat Log Args

section
variable {α β : Type} [Zero α] [One α] [Add α] [Sub α] [Mul α] [Div α] [Num α] [DecidableEq β] {D : Type} [Args.Dbl D]

theorem given_spin {args : List Str} {as : List Asg} (hr : Reads args as) (hok : ∀ a ∈ as, a.Ok) {f : Str}
    (hf : f ∈ [lit "--spin_P", lit "--spin_1", lit "--spin_2"]) : ∀ v ∈ given f as, v = (lit "Alpha") ∨ v = (lit "Beta") := by
  have kind : ∀ x ∈ valueFlags, x.1 ∈ [lit "--spin_P", lit "--spin_1", lit "--spin_2"] → x.2.2 = .spin := by decide
  induction hr with
  | nil => intro v hv; cases hv
  | info _ _ ih => exact ih hok
  | switch _ _ _ ih => exact ih (fun a ha => hok a (List.mem_cons_of_mem _ ha))
  | @value g s k t v ts as h _ _ ih =>
    have ih := ih (fun a ha => hok a (List.mem_cons_of_mem _ ha))
    intro w hw
    simp only [given] at hw
    split at hw
    · next e =>
      subst e
      have hk : k = .spin := kind _ h hf
      subst hk
      rcases List.mem_cons.1 hw with rfl | hw
      · exact hok _ (List.mem_cons_self ..)
      · exact ih w hw
    · exact ih w hw

/-- **C122 (spins).** An intelligible command line asks for alpha or beta spin, each time. -/
theorem C122_spins {args : List Str} {as : List Asg} (hi : Intelligible args as) (f : Str) (hf : f ∈ [lit "--spin_P", lit "--spin_1", lit "--spin_2"]) :
    ∃ spin : Log.Spin, askedSpin as f = spin.name := by
  unfold askedSpin
  cases e : (given f as).getLast? with
  | none => exact ⟨.alpha, rfl⟩
  | some v =>
    rcases given_spin hi.reads hi.ok hf v (List.mem_of_getLast? e) with rfl | rfl
    · exact ⟨.alpha, rfl⟩
    · exact ⟨.beta, rfl⟩

theorem uses_fits {files : Str → Option Str} {args : List Str} {as : List Asg} (hi : Intelligible args as) {f g y : Str} {exts : List Str}
    (hx : ∀ e ∈ exts, e.length ≤ 4) (h : UsesFile (fsOf files) as f g exts y) : Fits y := by
  unfold Fits
  cases h with
  | explicit hv _ => have := hi.fits _ (given_mem hi.reads hv); omega
  | @sister w dir core ext e _ hw hp hm _ =>
    have h1 := hi.fits _ (given_mem hi.reads hw)
    have h2 := hx e hm
    rw [hp.1] at h1
    simp only [List.length_append] at h1 ⊢
    omega

/-- **C122.** What calc_J does with an intelligible command line and any files: if the files it means are there and the orbital numbers have
the right sign, what `calcJ` says of the contents of the files; otherwise it throws. -/
theorem C122_command_line (tos : α → β) (files : Str → Option Str) (hfit : ∀ name text, files name = some text → Fits text)
    {args : List Str} {as : List Asg} (hi : Intelligible args as) :
    (∀ (file : Str → Str) (n1 n2 : Int), FilesMeant files as file →
      AskedNum as (lit "--orbital_num_1") n1 → AskedNum as (lit "--orbital_num_2") n2 →
      SignOk (askedType as (lit "--orbital_type_1")) n1 → SignOk (askedType as (lit "--orbital_type_2")) n2 →
      ∃ par, Requests as par ∧ (∀ x ∈ inputFiles, fileOf par x.1 = file x.1) ∧
        ∀ {spinP spin1 spin2 : Log.Spin}, askedSpin as (lit "--spin_P") = spinP.name → askedSpin as (lit "--spin_1") = spin1.name →
          askedSpin as (lit "--spin_2") = spin2.name →
        ∀ {punP pun1 pun2 : Res (Pun.Known α)} {logP log1 log2 : Res (LogLines.Known α × List Int)},
          PunFile files (file (lit "--pun_P")) punP → PunFile files (file (lit "--pun_1")) pun1 → PunFile files (file (lit "--pun_2")) pun2 →
          LogFile files (file (lit "--log_P")) logP → LogFile files (file (lit "--log_1")) log1 → LogFile files (file (lit "--log_2")) log2 →
          Does (fun fuel => calcJRun D tos files fuel args) (calcJ tos par spinP spin1 spin2 punP pun1 pun2 logP log1 log2)) ∧
    ((¬ ∃ (file : Str → Str) (n1 n2 : Int), FilesMeant files as file ∧
      AskedNum as (lit "--orbital_num_1") n1 ∧ AskedNum as (lit "--orbital_num_2") n2 ∧
      SignOk (askedType as (lit "--orbital_type_1")) n1 ∧ SignOk (askedType as (lit "--orbital_type_2")) n2) →
      ∃ e, ∀ fuel, (calcJRun D tos files fuel args : Res (Params.Params × Report α)) = .throw e) := by
  constructor
  · intro file n1 n2 hf a1 a2 g1 g2
    obtain ⟨q, par, hq, hpar, req, e1, e2, hfile⟩ := params_of D hi hf a1 a2 g1 g2
    refine ⟨par, req, hfile, ?_⟩
    intro spinP spin1 spin2 sP s1 s2 punP pun1 pun2 logP log1 log2 hpP hp1 hp2 hlP hl1 hl2
    have f1 : par.punP = file (lit "--pun_P") := hfile (lit "--pun_P", lit "--log_P", [lit ".orb", lit ".7", lit ".pun"]) (by decide)
    have f2 : par.pun1 = file (lit "--pun_1") := hfile (lit "--pun_1", lit "--log_1", [lit ".orb", lit ".7", lit ".pun"]) (by decide)
    have f3 : par.pun2 = file (lit "--pun_2") := hfile (lit "--pun_2", lit "--log_2", [lit ".orb", lit ".7", lit ".pun"]) (by decide)
    have f4 : par.logP = file (lit "--log_P") := hfile (lit "--log_P", lit "--pun_P", [lit ".log"]) (by decide)
    have f5 : par.log1 = file (lit "--log_1") := hfile (lit "--log_1", lit "--pun_1", [lit ".log"]) (by decide)
    have f6 : par.log2 = file (lit "--log_2") := hfile (lit "--log_2", lit "--pun_2", [lit ".log"]) (by decide)
    have hlen : ∀ x ∈ inputFiles, ∀ e ∈ x.2.2, e.length ≤ 4 := by decide
    have fit : ∀ x ∈ inputFiles, Fits (file x.1) := fun x hx => uses_fits hi (hlen x hx) (hf x hx).1
    rw [← f1] at hpP
    rw [← f2] at hp1
    rw [← f3] at hp2
    rw [← f4] at hlP
    rw [← f5] at hl1
    rw [← f6] at hl2
    refine C122_run tos files args hq hpar ?_ (fun name _ text h => hfit name text h) (req.spinP.trans sP) (req.spin1.trans s1) (req.spin2.trans s2)
      hpP hp1 hp2 hlP hl1 hl2
    rw [f1, f2, f3, f4, f5, f6]
    intro name hn
    simp only [List.mem_cons, List.not_mem_nil, or_false] at hn
    rcases hn with h | h | h | h | h | h <;> rw [h]
    · exact fit (lit "--pun_P", lit "--log_P", [lit ".orb", lit ".7", lit ".pun"]) (by decide)
    · exact fit (lit "--pun_1", lit "--log_1", [lit ".orb", lit ".7", lit ".pun"]) (by decide)
    · exact fit (lit "--pun_2", lit "--log_2", [lit ".orb", lit ".7", lit ".pun"]) (by decide)
    · exact fit (lit "--log_P", lit "--pun_P", [lit ".log"]) (by decide)
    · exact fit (lit "--log_1", lit "--pun_1", [lit ".log"]) (by decide)
    · exact fit (lit "--log_2", lit "--pun_2", [lit ".log"]) (by decide)
  · intro hno
    obtain ⟨q, hq⟩ := (C59_accepted (D := D) (fsOf files) args (fun v hv => by unfold Fits; have := hi.fits v hv; omega)).1.2
      ⟨as, hi.reads, hi.said, hi.ok⟩
    obtain ⟨h1, h2, -⟩ := C64_files_partial (fsOf files) args hi.fits q as hq hi.reads hi.once hi.plain
    have hp : ¬ ∃ par, Args.prepareParameters q = .ok par := by
      rintro ⟨par, hpar⟩
      obtain ⟨u, -, -, -⟩ := h1 par hpar
      obtain ⟨-, ⟨n1, b1, b2⟩, ⟨n2, c1, c2⟩⟩ := h2.1 ⟨par, hpar⟩
      exact hno ⟨fileOf par, n1, n2, fun x hx => ⟨(u x hx).1, (u x hx).2⟩, b1, c1, b2, c2⟩
    obtain ⟨e, he⟩ := (prepare_total (fsOf files) args hi.fits q as hq hi.reads hi.plain).resolve_left hp
    refine ⟨e, fun fuel => ?_⟩
    unfold calcJRun
    rw [prepareParser_ok, Res.ok_bind, hq, Res.ok_bind, he]
    rfl

/-- **C122 (totality).** So calc_J does something definite with every intelligible command line and all files. -/
theorem C122_total (tos : α → β) (files : Str → Option Str) (hfit : ∀ name text, files name = some text → Fits text)
    {args : List Str} {as : List Asg} (hi : Intelligible args as) :
    ∃ out : Res (Params.Params × Report α), Does (fun fuel => calcJRun D tos files fuel args) out := by
  obtain ⟨h1, h2⟩ := C122_command_line (D := D) tos files hfit hi
  by_cases h : ∃ (file : Str → Str) (n1 n2 : Int), FilesMeant files as file ∧
      AskedNum as (lit "--orbital_num_1") n1 ∧ AskedNum as (lit "--orbital_num_2") n2 ∧
      SignOk (askedType as (lit "--orbital_type_1")) n1 ∧ SignOk (askedType as (lit "--orbital_type_2")) n2
  · obtain ⟨file, n1, n2, hf, a1, a2, g1, g2⟩ := h
    obtain ⟨par, -, -, hd⟩ := h1 file n1 n2 hf a1 a2 g1 g2
    obtain ⟨sP, eP⟩ := C122_spins hi (lit "--spin_P") (by decide)
    obtain ⟨s1, e1⟩ := C122_spins hi (lit "--spin_1") (by decide)
    obtain ⟨s2, e2⟩ := C122_spins hi (lit "--spin_2") (by decide)
    obtain ⟨rP, hrP⟩ := (C122_reading (α := α) files (file (lit "--pun_P"))).1
    obtain ⟨r1, hr1⟩ := (C122_reading (α := α) files (file (lit "--pun_1"))).1
    obtain ⟨r2, hr2⟩ := (C122_reading (α := α) files (file (lit "--pun_2"))).1
    obtain ⟨lP, hlP⟩ := (C122_reading (α := α) files (file (lit "--log_P"))).2
    obtain ⟨l1, hl1⟩ := (C122_reading (α := α) files (file (lit "--log_1"))).2
    obtain ⟨l2, hl2⟩ := (C122_reading (α := α) files (file (lit "--log_2"))).2
    exact ⟨_, hd eP e1 e2 hrP hr1 hr2 hlP hl1 hl2⟩
  · obtain ⟨e, he⟩ := h2 h
    exact ⟨.throw e, by simp, 0, fun fuel _ => he fuel⟩

end

end Verif.Run
