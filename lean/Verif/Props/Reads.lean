import Verif.Spec.Reads
import Verif.Props.EveryLine
/-
C152: what calc_J reads.
-/
namespace Verif.Run
open Strings Readers QC Mat Log Args

theorem Takes.congr {fs fs' : FS} {as : List Asg} {x : Str × Str × List Str} (hx : x ∈ inputFiles) (h : ∀ name, AsksFor as name → fs name = fs' name)
    {r : Option Str} (ht : Takes fs as x.1 x.2.1 x.2.2 r) : Takes fs' as x.1 x.2.1 x.2.2 r := by
  have hg : ∀ v ∈ given x.1 as, fs v = fs' v := fun v hv => h v (.given hx hv)
  refine ⟨?_, ?_⟩
  · rintro ⟨v, hv, e⟩
    exact ht.1 ⟨v, hv, (hg v hv).trans e⟩
  · intro hn
    have hn' := ht.2 fun v hv => (hg v hv).trans (hn v hv)
    cases hw : (given x.2.1 as).getLast? with
    | none => rw [hw] at hn'; exact hn'
    | some w =>
      rw [hw] at hn'
      obtain ⟨dir, core, ext, words, hp, hl, hc⟩ := hn'
      have he : ∀ e ∈ x.2.2, fs (dir ++ core ++ e) = fs' (dir ++ core ++ e) := fun e he => h _ (.next hx hw hp he)
      refine ⟨dir, core, ext, words, hp, hl, ?_⟩
      rcases hc with ⟨c1, c2⟩ | ⟨before, e, after, y, c1, c2, c3, c4⟩
      · exact .inl ⟨fun e hm => (he e hm).symm.trans (c1 e hm), c2⟩
      · have me : e ∈ x.2.2 := by rw [c1]; simp
        have ma : ∀ e' ∈ after, e' ∈ x.2.2 := fun e' hm => by rw [c1]; simp [hm]
        exact .inr ⟨before, e, after, y, c1, (he e me).symm.trans c2, fun e' hm => (he e' (ma e' hm)).symm.trans (c3 e' hm), c4⟩

theorem Takes.asked {fs : FS} {as : List Asg} {x : Str × Str × List Str} (hx : x ∈ inputFiles) (hsp : ∀ v ∈ given x.2.1 as, ∀ c ∈ v, White c = false)
    {y : Str} (ht : Takes fs as x.1 x.2.1 x.2.2 (some y)) : AsksFor as y := by
  by_cases hex : ∃ v ∈ given x.1 as, fs v = true
  · exact .given hx (List.mem_of_getLast? (ht.1 hex).symm)
  · have hno : ∀ v ∈ given x.1 as, fs v = false := by
      intro v hv
      cases e : fs v with
      | false => rfl
      | true => exact absurd ⟨v, hv, e⟩ hex
    have hal : ∀ x ∈ inputFiles, ∀ e ∈ x.2.2, e ≠ [] ∧ ∀ c ∈ e, isSpace c = false := by decide
    have h := (ht.2 hno).plain (fun v hv c hc => hsp v hv c hc) (hal x hx)
    unfold SisterFile at h
    cases hl : (given x.2.1 as).getLast? with
    | none => rw [hl] at h; cases h
    | some w =>
      rw [hl] at h
      obtain ⟨dir, core, ext, hp, he⟩ := h
      obtain ⟨e, h1, h2⟩ := Option.map_eq_some_iff.1 he.symm
      rw [← h2]
      exact .next hx hl hp (List.mem_filter.1 (List.mem_of_getLast? h1)).1

section
variable {D : Type} [Args.Dbl D]

/-- **C152 (parameters).** Reading the command line and preparing the parameters come out the same with any two sets of files among which the
same of the files asked for exist. -/
theorem C152_parameters {fs fs' : FS} {args : List Str} (hargs : ∀ v ∈ args, v.length + 4 < 2 ^ 63) (h : SameExist args fs fs') :
    (Args.parse fs (Args.calcJ (D := D)) args >>= Args.prepareParameters) = (Args.parse fs' (Args.calcJ (D := D)) args >>= Args.prepareParameters) := by
  have hfits : ∀ v ∈ args, Fits v := fun v hv => by unfold Fits; have := hargs v hv; omega
  rcases parse_exactly (D := D) fs args hfits with ⟨as, q, h1, h2, h3, h4, -⟩ | ⟨e, h1, h2, -⟩ | ⟨h1, h2⟩
  · have hu : Understood args as := ⟨h1, h3, h2⟩
    obtain ⟨q', hq'⟩ := (C59_accepted (D := D) fs' args hfits).1.2 ⟨as, h1, h3, h2⟩
    obtain ⟨r, hr⟩ := (C124_takes fs hargs hu).1
    have hv : ∀ f s k, (f, s, k) ∈ valueFlags → ∀ v ∈ given f as, ValueOk k v := fun f s k hf => given_ok h1.kinds h2 hf
    have a1 := asked_num hv (f := lit "--orbital_num_1") (s := lit "-orb_num_1") (by decide)
    have a2 := asked_num hv (f := lit "--orbital_num_2") (s := lit "-orb_num_2") (by decide)
    rw [h4, hq', Res.ok_bind, Res.ok_bind, C124_parameters fs hargs h4 h1 hr a1 a2,
      C124_parameters fs' hargs hq' h1 (fun x hx => Takes.congr hx (h as h1) (hr x hx)) a1 a2]
  · have : Args.parse fs' (Args.calcJ (D := D)) args = .throw e := by
      rcases h2 with ⟨rfl, rfl⟩ | h2
      · rfl
      · have hne : args ≠ [] := by rintro rfl; cases h2
        unfold Args.parse
        rw [if_neg hne, refused_loop (D := D) fs' (args.length + 1) h2 hfits [] (Args.calcJ (D := D)) 2 (After.init _) (by omega)]
        rfl
    rw [h1, this]
  · rw [h1, (C63_outcomes (D := D) fs' args hfits).2.2 ((C63_outcomes (D := D) fs args hfits).2.1 h1)]

/-- **C152 (a line with a mistake).** On a command line that is not understood the files do not matter at all. -/
theorem C152_mistake (fs fs' : FS) {args : List Str} (hargs : ∀ v ∈ args, v.length + 4 < 2 ^ 63) (h : ∀ as, ¬ Understood args as) :
    (∀ q, Args.parse fs (Args.calcJ (D := D)) args ≠ .ok q) ∧
    Args.parse fs (Args.calcJ (D := D)) args = Args.parse fs' (Args.calcJ (D := D)) args := by
  have hfits : ∀ v ∈ args, Fits v := fun v hv => by unfold Fits; have := hargs v hv; omega
  rcases parse_exactly (D := D) fs args hfits with ⟨as, q, h1, h2, h3, h4, -⟩ | ⟨e, h1, h2, -⟩ | ⟨h1, h2⟩
  · exact absurd ⟨h1, h3, h2⟩ (h as)
  · have : Args.parse fs' (Args.calcJ (D := D)) args = .throw e := by
      rcases h2 with ⟨rfl, rfl⟩ | h2
      · rfl
      · have hne : args ≠ [] := by rintro rfl; cases h2
        unfold Args.parse
        rw [if_neg hne, refused_loop (D := D) fs' (args.length + 1) h2 hfits [] (Args.calcJ (D := D)) 2 (After.init _) (by omega)]
        rfl
    exact ⟨fun q hq => (by rw [h1] at hq; cases hq), by rw [h1, this]⟩
  · exact ⟨fun q hq => (by rw [h1] at hq; cases hq),
      by rw [h1, (C63_outcomes (D := D) fs' args hfits).2.2 ((C63_outcomes (D := D) fs args hfits).2.1 h1)]⟩

end

section
variable {α β : Type} [Zero α] [One α] [Add α] [Sub α] [Mul α] [Div α] [Num α] [DecidableEq β] {D : Type} [Args.Dbl D]

/-- calc_J after the parameters. -/
theorem calcJRun_parameters (tos : α → β) (files : Str → Option Str) (fuel : Nat) (args : List Str) :
    (calcJRun D tos files fuel args : Res (Params.Params × Report α)) =
      ((Args.parse (fsOf files) (Args.calcJ (D := D)) args >>= Args.prepareParameters) >>= fun par => do
        let ((prP, pr1, pr2), (lrP, lr1, lr2)) ← readFiles files fuel par
        let r ← couplingReport tos par prP pr1 pr2 lrP lr1 lr2
        .ok (par, r)) := by
  unfold calcJRun
  rw [prepareParser_ok, Res.ok_bind, bind_assoc]

theorem read_same {σ : Type} (s : Readers.Sections σ) {files files' : Str → Option Str} {name : Str} (h : files name = files' name) (fuel : Nat) (d : σ) :
    Readers.read s files name fuel d = Readers.read s files' name fuel d := by
  unfold Readers.read
  rw [h]

/-- **C152.** Two sets of files, of which the same of the files asked for exist and which hold the same in the six files taken, make no
difference to what calc_J does. -/
theorem C152_reads (tos : α → β) {files files' : Str → Option Str} {args : List Str} (hargs : ∀ v ∈ args, v.length + 4 < 2 ^ 63)
    (hexist : SameExist args (fun name => (files name).isSome) (fun name => (files' name).isSome))
    (hsame : ∀ q par, Args.parse (fun name => (files name).isSome) (Args.calcJ (D := D)) args = .ok q → Args.prepareParameters q = .ok par →
      ∀ name ∈ [par.punP, par.pun1, par.pun2, par.logP, par.log1, par.log2], files name = files' name) (fuel : Nat) :
    (calcJRun D tos files fuel args : Res (Params.Params × Report α)) = calcJRun D tos files' fuel args := by
  have key := C152_parameters (D := D) hargs hexist
  rw [calcJRun_parameters, calcJRun_parameters]
  change (Args.parse (fsOf files) _ args >>= _) = (Args.parse (fsOf files') _ args >>= _) at key
  rw [← key]
  cases hq : Args.parse (fsOf files) (Args.calcJ (D := D)) args with
  | ok q =>
    rw [Res.ok_bind]
    cases hp : Args.prepareParameters q with
    | ok par =>
      rw [Res.ok_bind, Res.ok_bind]
      have hn := hsame q par hq hp
      have e : (readFiles files fuel par : Res ((PunData α × PunData α × PunData α) × (LogData α × LogData α × LogData α))) = readFiles files' fuel par := by
        unfold readFiles readPun readLog
        rw [read_same _ (hn par.punP (by simp)), read_same _ (hn par.pun1 (by simp)), read_same _ (hn par.pun2 (by simp)),
          read_same _ (hn par.logP (by simp)), read_same _ (hn par.log1 (by simp)), read_same _ (hn par.log2 (by simp))]
      rw [e]
    | _ => rfl
  | _ => rfl

/-- **C152 (the files that matter).** On a command line without white space in the file names calc_J depends on nothing but the files asked for:
those given, and the candidates next to the files given for the companion flags. -/
theorem C152_listed (tos : α → β) {files files' : Str → Option Str} {args : List Str} (hargs : ∀ v ∈ args, v.length + 4 < 2 ^ 63)
    (hblank : ∀ v ∈ args, ∀ c ∈ v, White c = false)
    (h : ∀ as, Reads args as → ∀ name, AsksFor as name → files name = files' name) (fuel : Nat) :
    (calcJRun D tos files fuel args : Res (Params.Params × Report α)) = calcJRun D tos files' fuel args := by
  refine C152_reads tos hargs (fun as hr name hn => by simp only [h as hr name hn]) ?_ fuel
  intro q par hq hp
  have hfits : ∀ v ∈ args, Fits v := fun v hv => by unfold Fits; have := hargs v hv; omega
  obtain ⟨as, hr, hne, hok⟩ := (C59_accepted (D := D) _ args hfits).1.1 ⟨q, hq⟩
  obtain ⟨r, ht⟩ := (C124_takes (fun name => (files name).isSome) hargs ⟨hr, hne, hok⟩).1
  have hv : ∀ f s k, (f, s, k) ∈ valueFlags → ∀ v ∈ given f as, ValueOk k v := fun f s k hf => given_ok hr.kinds hok hf
  have a1 := asked_num hv (f := lit "--orbital_num_1") (s := lit "-orb_num_1") (by decide)
  have a2 := asked_num hv (f := lit "--orbital_num_2") (s := lit "-orb_num_2") (by decide)
  rw [C124_parameters _ hargs hq hr ht a1 a2] at hp
  obtain ⟨f1, f2, f3, f4, f5, f6, -⟩ := parameters_ok hp
  have all : ∀ x ∈ inputFiles, ∀ y, r x.1 = some y → files y = files' y := fun x hx y hy =>
    h as hr y (Takes.asked hx (y := y) (hsp := fun v hv => hblank v (given_mem hr hv)) (ht := hy ▸ ht x hx))
  intro name hn
  simp only [List.mem_cons, List.not_mem_nil, or_false] at hn
  rcases hn with rfl | rfl | rfl | rfl | rfl | rfl
  · exact all (lit "--pun_P", lit "--log_P", [lit ".orb", lit ".7", lit ".pun"]) (by decide) _ f1
  · exact all (lit "--pun_1", lit "--log_1", [lit ".orb", lit ".7", lit ".pun"]) (by decide) _ f2
  · exact all (lit "--pun_2", lit "--log_2", [lit ".orb", lit ".7", lit ".pun"]) (by decide) _ f3
  · exact all (lit "--log_P", lit "--pun_P", [lit ".log"]) (by decide) _ f4
  · exact all (lit "--log_1", lit "--pun_1", [lit ".log"]) (by decide) _ f5
  · exact all (lit "--log_2", lit "--pun_2", [lit ".log"]) (by decide) _ f6

end
end Verif.Run
