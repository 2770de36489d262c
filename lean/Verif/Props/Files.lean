import Verif.Prepare
/-
Properties C64-C66: from the command line to the parameters of the calculation.
-/
namespace Verif.Args
open Strings
section
variable {D : Type} [Dbl D]

/-- The parameter that holds the file of an input flag. -/
def fileOf (par : Params.Params) (f : Str) : Str :=
  if f = lit "--pun_P" then par.punP else if f = lit "--pun_1" then par.pun1 else if f = lit "--pun_2" then par.pun2
  else if f = lit "--log_P" then par.logP else if f = lit "--log_1" then par.log1 else par.log2

private theorem suffix_last {x e s : Str} {c d : Char} (h : s ++ [c] <:+ x ++ (e ++ [d])) : c = d := by
  obtain ⟨t, ht⟩ := h
  rw [← List.append_assoc, ← List.append_assoc] at ht
  have := List.append_inj_right' ht rfl
  simpa using this

/-- The chosen file in terms of the specification, for a flag given at most once, its companion too. -/
private theorem chosen_spec {fs : FS} {as : List Asg} {x : Str × Str × List Str} (hx : x ∈ inputFiles) {r : Option Str}
    (h : Chosen fs as x.1 x.2.1 x.2.2 r) (h1 : (given x.1 as).length ≤ 1) (h2 : (given x.2.1 as).length ≤ 1) :
    (∀ y, r = some y → UsesFile fs as x.1 x.2.1 x.2.2 y) ∧ (r = none → NoFile fs as x.1 x.2.1 x.2.2) ∧
    (∀ y, UsesFile fs as x.1 x.2.1 x.2.2 y → needed x.1 <:+ y → r = some y) := by
  have single : ∀ l : List Str, l.length ≤ 1 → l = [] ∨ ∃ v, l = [v] := by
    intro l hl
    match l, hl with
    | [], _ => exact .inl rfl
    | [v], _ => exact .inr ⟨v, rfl⟩
  unfold Chosen at h
  have hnone : (given x.1 as).any fs = false → ∀ v ∈ given x.1 as, fs v = false := by
    intro ha v hv
    rw [List.any_eq_false] at ha
    simpa using ha v hv
  by_cases hany : (given x.1 as).any fs = true
  · rw [if_pos hany] at h
    rcases single _ h1 with hg | ⟨v, hg⟩
    · rw [hg] at hany; simp at hany
    · rw [hg] at hany h
      simp at hany h
      subst h
      refine ⟨?_, by simp, ?_⟩
      · intro y hy; cases hy
        exact .explicit (by simp [hg]) hany
      · intro y hy _
        cases hy with
        | explicit hv _ => rw [hg] at hv; simp at hv; rw [hv]
        | sister hn => rw [hn v (by simp [hg])] at hany; cases hany
  · rw [if_neg hany] at h
    have hany' : (given x.1 as).any fs = false := by simpa using hany
    have hex : ∀ v ∈ given x.1 as, fs v ≠ true := fun v hv he => by
      rw [hnone hany' v hv] at he; cases he
    unfold SisterFile at h
    rcases single _ h2 with hg | ⟨w, hg⟩
    · rw [hg] at h; simp at h
      subst h
      refine ⟨by simp, ?_, ?_⟩
      · intro _ y hy
        cases hy with
        | explicit hv he => exact hex _ hv he
        | sister _ hw => rw [hg] at hw; cases hw
      · intro y hy
        cases hy with
        | explicit hv he => exact absurd he (hex _ hv)
        | sister _ hw => rw [hg] at hw; cases hw
    · rw [hg] at h; simp only [List.getLast?_singleton] at h
      obtain ⟨dir, core, ext, hp, hpick⟩ := h
      refine ⟨?_, ?_, ?_⟩
      · intro y hy
        rw [hpick, Option.map_eq_some_iff] at hy
        obtain ⟨e, he, rfl⟩ := hy
        have := List.mem_filter.1 (List.mem_of_getLast? he)
        exact .sister (hnone hany') (by simp [hg]) hp this.1 this.2
      · intro hr y hy
        rw [hr] at hpick
        have hf : (x.2.2.filter (fun e => fs (dir ++ core ++ e))) = [] := by
          rw [← List.getLast?_eq_none_iff]
          cases hl : (x.2.2.filter (fun e => fs (dir ++ core ++ e))).getLast? with
          | none => rfl
          | some e => rw [hl] at hpick; cases hpick
        cases hy with
        | explicit hv he => exact hex _ hv he
        | @sister w' dir' core' ext' e _ hw hp' hm he =>
          rw [hg] at hw; simp at hw; subst hw
          obtain ⟨rfl, rfl, rfl⟩ := hp.unique hp'
          rw [List.filter_eq_nil_iff] at hf
          exact hf e hm he
      · intro y hy hs
        cases hy with
        | explicit hv he => exact absurd he (hex _ hv)
        | @sister w' dir' core' ext' e _ hw hp' hm he =>
          rw [hg] at hw; simp at hw; subst hw
          obtain ⟨rfl, rfl, rfl⟩ := hp.unique hp'
          rw [hpick]
          have hk : ∀ x ∈ inputFiles, (x.2.2 = [lit ".orb", lit ".7", lit ".pun"] ∧ needed x.1 = lit ".pun") ∨ x.2.2 = [lit ".log"] := by
            decide
          rcases hk x hx with ⟨k1, k2⟩ | k1
          · rw [k1] at hm ⊢
            rw [k2] at hs
            have e3 : lit ".pun" = lit ".pu" ++ ['n'] := by decide
            simp only [List.mem_cons, List.not_mem_nil, or_false] at hm
            rcases hm with rfl | rfl | rfl
            · have e4 : lit ".orb" = lit ".or" ++ ['b'] := by decide
              rw [e3, e4] at hs
              exact absurd (suffix_last hs) (by decide)
            · have e4 : lit ".7" = lit "." ++ ['7'] := by decide
              rw [e3, e4] at hs
              exact absurd (suffix_last hs) (by decide)
            · have : [lit ".orb", lit ".7", lit ".pun"] = [lit ".orb", lit ".7"] ++ [lit ".pun"] := rfl
              rw [this, List.filter_append]
              simp only [List.filter_cons, he, if_true, List.filter_nil, List.getLast?_append, List.getLast?_singleton, Option.some_or, Option.map_some]
          · rw [k1] at hm ⊢
            simp only [List.mem_cons, List.not_mem_nil, or_false] at hm
            subst hm
            simp only [List.filter_cons, he, if_true, List.filter_nil, List.getLast?_singleton, Option.map_some]

/-- The files of an accepted log flag, or next to a pun file, end in `.log`. -/
private theorem log_suffix {fs : FS} {as : List Asg} {x : Str × Str × List Str} (hx : x ∈ inputFiles)
    (hn : needed x.1 = lit ".log") (hk : ∀ v ∈ given x.1 as, ValueOk .log v) {y : Str}
    (h : UsesFile fs as x.1 x.2.1 x.2.2 y) : needed x.1 <:+ y := by
  rw [hn]
  cases h with
  | explicit hv _ =>
    obtain ⟨dir, core, ext, hp, rfl⟩ := hk _ hv
    exact ⟨dir ++ core, hp.eq.symm⟩
  | sister _ _ _ hm _ =>
    have hkk : ∀ x ∈ inputFiles, needed x.1 = lit ".log" → x.2.2 = [lit ".log"] := by decide
    rw [hkk x hx hn] at hm
    simp at hm; subst hm
    exact ⟨_, rfl⟩

private theorem useFile_ok {ext y : Str} {r : Option Str} : useFile ext r = .ok y ↔ r = some y ∧ ext <:+ y := by
  cases r with
  | none => simp [useFile]
  | some x =>
    simp only [useFile, Option.some.injEq]
    split
    · simp only [Res.ok.injEq]
      constructor
      · rintro rfl; exact ⟨rfl, by assumption⟩
      · rintro ⟨rfl, -⟩; rfl
    · simp only [reduceCtorEq, false_iff, not_and]
      rintro rfl; assumption

private theorem useNum_ok {t : Str} {n m : Int} : useNum t n = .ok m ↔ SignOk t n ∧ m = n := by
  unfold useNum
  split
  · simp only [Res.ok.injEq]; constructor
    · rintro rfl; exact ⟨by assumption, rfl⟩
    · rintro ⟨-, rfl⟩; rfl
  · simp only [reduceCtorEq, false_iff, not_and]; intro h; contradiction

/-- The type, number and spin requested on the command line, with their defaults. -/
structure Requests (as : List Asg) (par : Params.Params) : Prop where
  spinP : par.spinP = askedSpin as (lit "--spin_P")
  spin1 : par.spin1 = askedSpin as (lit "--spin_1")
  spin2 : par.spin2 = askedSpin as (lit "--spin_2")
  type1 : par.orbType1 = askedType as (lit "--orbital_type_1")
  type2 : par.orbType2 = askedType as (lit "--orbital_type_2")
  num1 : AskedNum as (lit "--orbital_num_1") par.orbNum1
  num2 : AskedNum as (lit "--orbital_num_2") par.orbNum2
  citation : par.citation = some (turnedOn (lit "--citation") as)
  counterPoise : par.counterPoise = turnedOn (lit "--counter_poise") as
  /-- nothing is asked about the orbitals of the dimer -/
  typeP : par.orbTypeP = []
  numP : par.orbNumP = 0

theorem intText_intOf {v : Str} (h : ValueOk .onum v) : IntText v (intOf v) ∧ ∀ n, IntText v n → n = intOf v := by
  obtain ⟨n, hn, hr⟩ := h
  have key : ∀ m, IntText v m → intOf v = m := by
    intro m hm
    obtain ⟨a, b, c⟩ := C67_stoi v
    by_cases hr' : -2 ^ 31 ≤ m ∧ m < 2 ^ 31
    · have hs := a m hm hr'
      unfold stoi at hs
      unfold intOf
      cases hst : strtol v with
      | none => rw [hst] at hs; cases hs
      | some k =>
        rw [hst] at hs; simp only at hs
        split at hs
        · cases hs
        · cases hs; rfl
    · exfalso
      have h1 := a n hn hr
      have h2 := b m hm (by omega)
      rw [h1] at h2; cases h2
  refine ⟨by rw [key n hn]; exact hn, fun m hm => (key m hm).symm⟩

theorem facts (fs : FS) (args : List Str) (hfit : ∀ v ∈ args, v.length + 4 < 2 ^ 63) (q : Parser D) (as : List Asg)
    (h : parse fs calcJ args = .ok q) (hr : Reads args as) :
    After fs as q ∧ (∀ f s k, (f, s, k) ∈ valueFlags → ∀ v ∈ given f as, ValueOk k v) := by
  rcases parse_outcome (D := D) fs args (fun v hv => by have := hfit v hv; unfold Fits; omega) with ⟨as', q', h1, h2, -, h3, h4⟩ | ⟨e, h', -⟩ | ⟨h', -⟩
  · rw [h] at h3; cases h3
    cases h1.unique hr
    exact ⟨h4, fun f s k hf => given_ok hr.kinds h2 hf⟩
  · rw [h] at h'; cases h'
  · rw [h] at h'; cases h'

theorem type_ok {as : List Asg} (hv : ∀ f s k, (f, s, k) ∈ valueFlags → ∀ v ∈ given f as, ValueOk k v) :
    ∀ f, f = lit "--orbital_type_1" ∨ f = lit "--orbital_type_2" → askedType as f = lit "HOMO" ∨ askedType as f = lit "LUMO" := by
  intro f hf
  unfold askedType
  cases hl : (given f as).getLast? with
  | none => exact .inl rfl
  | some v =>
    have : ∃ s, (f, s, Kind.otype) ∈ valueFlags := by
      rcases hf with rfl | rfl
      · exact ⟨lit "-orb_ty_1", by decide⟩
      · exact ⟨lit "-orb_ty_2", by decide⟩
    obtain ⟨s, hs⟩ := this
    exact hv f s _ hs v (List.mem_of_getLast? hl)

/-- C64, for file names without white space and file flags given at most once: parameters are prepared exactly when each
of the six inputs has a file to use with the right extension and the orbital numbers have the right sign; then the files
used are the explicitly given ones that exist, else existing files next to the companion's; and everything else is as
requested. -/
theorem C64_files_partial (fs : FS) (args : List Str) (hfit : ∀ v ∈ args, v.length + 4 < 2 ^ 63) (q : Parser D)
    (as : List Asg) (h : parse fs calcJ args = .ok q) (hr : Reads args as)
    (hone : ∀ x ∈ inputFiles, (given x.1 as).length ≤ 1)
    (hsp : ∀ x ∈ inputFiles, ∀ v ∈ given x.1 as, ∀ c ∈ v, White c = false) :
    (∀ par, prepareParameters q = .ok par →
      (∀ x ∈ inputFiles, UsesFile fs as x.1 x.2.1 x.2.2 (fileOf par x.1) ∧ needed x.1 <:+ fileOf par x.1) ∧
      Requests as par ∧ SignOk par.orbType1 par.orbNum1 ∧ SignOk par.orbType2 par.orbNum2) ∧
    ((∃ par, prepareParameters q = .ok par) ↔
      (∀ x ∈ inputFiles, ∃ y, UsesFile fs as x.1 x.2.1 x.2.2 y ∧ needed x.1 <:+ y) ∧
      (∃ n, AskedNum as (lit "--orbital_num_1") n ∧ SignOk (askedType as (lit "--orbital_type_1")) n) ∧
      (∃ n, AskedNum as (lit "--orbital_num_2") n ∧ SignOk (askedType as (lit "--orbital_type_2")) n)) ∧
    (∀ x ∈ inputFiles, NoFile fs as x.1 x.2.1 x.2.2 →
      (∃ e, prepareParameters q = .throw e) ∧
      ((∀ x ∈ inputFiles, ∀ y, UsesFile fs as x.1 x.2.1 x.2.2 y → needed x.1 <:+ y) →
        prepareParameters q = .throw .runtimeError)) := by
  obtain ⟨ha, hv⟩ := facts fs args hfit q as h hr
  have hin : ∀ f ∈ fileNames, ∃ x ∈ inputFiles, x.1 = f := by decide
  obtain ⟨r, hc, he⟩ := prepare_eq ha (fun f hf v hv => hfit v (given_mem hr hv))
    (fun f hf => by obtain ⟨x, hx, rfl⟩ := hin f hf; exact hsp x hx) (type_ok hv)
  have hcomp : ∀ x ∈ inputFiles, ∃ y ∈ inputFiles, y.1 = x.2.1 := by decide
  have hspec : ∀ x ∈ inputFiles, (∀ y, r x.1 = some y → UsesFile fs as x.1 x.2.1 x.2.2 y) ∧
      (r x.1 = none → NoFile fs as x.1 x.2.1 x.2.2) ∧
      (∀ y, UsesFile fs as x.1 x.2.1 x.2.2 y → needed x.1 <:+ y → r x.1 = some y) := by
    intro x hx
    refine chosen_spec hx (hc x hx) (hone x hx) ?_
    obtain ⟨y, hy, e⟩ := hcomp x hx
    rw [← e]; exact hone y hy
  have m1 : (lit "--pun_P", lit "--log_P", [lit ".orb", lit ".7", lit ".pun"]) ∈ inputFiles := by decide
  have m2 : (lit "--pun_1", lit "--log_1", [lit ".orb", lit ".7", lit ".pun"]) ∈ inputFiles := by decide
  have m3 : (lit "--pun_2", lit "--log_2", [lit ".orb", lit ".7", lit ".pun"]) ∈ inputFiles := by decide
  have m4 : (lit "--log_P", lit "--pun_P", [lit ".log"]) ∈ inputFiles := by decide
  have m5 : (lit "--log_1", lit "--pun_1", [lit ".log"]) ∈ inputFiles := by decide
  have m6 : (lit "--log_2", lit "--pun_2", [lit ".log"]) ∈ inputFiles := by decide
  have d1 : needed (lit "--pun_P") = lit ".pun" := by decide
  have d2 : needed (lit "--pun_1") = lit ".pun" := by decide
  have d3 : needed (lit "--pun_2") = lit ".pun" := by decide
  have d4 : needed (lit "--log_P") = lit ".log" := by decide
  have d5 : needed (lit "--log_1") = lit ".log" := by decide
  have d6 : needed (lit "--log_2") = lit ".log" := by decide
  have hnum : ∀ f s, (f, s, Kind.onum) ∈ valueFlags →
      AskedNum as f (numOf as f) ∧ ∀ n, AskedNum as f n → n = numOf as f := by
    intro f s hf
    unfold numOf AskedNum
    cases hl : (given f as).getLast? with
    | none => exact ⟨rfl, fun n hn => hn⟩
    | some v => exact intText_intOf (hv f s _ hf v (List.mem_of_getLast? hl))
  rw [he]
  refine ⟨?_, ?_, ?_⟩
  · intro par hpar
    simp only [Res.bind_eq_ok, useFile_ok, useNum_ok] at hpar
    obtain ⟨pP, ⟨a1, b1⟩, p1, ⟨a2, b2⟩, p2, ⟨a3, b3⟩, lP, ⟨a4, b4⟩, l1, ⟨a5, b5⟩, l2, ⟨a6, b6⟩, n1, ⟨c1, rfl⟩, n2, ⟨c2, rfl⟩, hpar⟩ := hpar
    cases hpar
    refine ⟨?_, ?_, c1, c2⟩
    · intro x hx
      simp only [inputFiles, List.mem_cons, List.not_mem_nil, or_false] at hx
      rcases hx with rfl | rfl | rfl | rfl | rfl | rfl
      · exact ⟨(hspec _ m1).1 _ a1, b1⟩
      · exact ⟨(hspec _ m2).1 _ a2, b2⟩
      · exact ⟨(hspec _ m3).1 _ a3, b3⟩
      · exact ⟨(hspec _ m4).1 _ a4, b4⟩
      · exact ⟨(hspec _ m5).1 _ a5, b5⟩
      · exact ⟨(hspec _ m6).1 _ a6, b6⟩
    · exact ⟨rfl, rfl, rfl, rfl, rfl, (hnum _ (lit "-orb_num_1") (by decide)).1, (hnum _ (lit "-orb_num_2") (by decide)).1, rfl, rfl, rfl, rfl⟩
  · constructor
    · rintro ⟨par, hpar⟩
      simp only [Res.bind_eq_ok, useFile_ok, useNum_ok] at hpar
      obtain ⟨pP, ⟨a1, b1⟩, p1, ⟨a2, b2⟩, p2, ⟨a3, b3⟩, lP, ⟨a4, b4⟩, l1, ⟨a5, b5⟩, l2, ⟨a6, b6⟩, n1, ⟨c1, rfl⟩, n2, ⟨c2, rfl⟩, hpar⟩ := hpar
      refine ⟨?_, ⟨_, (hnum _ (lit "-orb_num_1") (by decide)).1, c1⟩, ⟨_, (hnum _ (lit "-orb_num_2") (by decide)).1, c2⟩⟩
      intro x hx
      simp only [inputFiles, List.mem_cons, List.not_mem_nil, or_false] at hx
      rcases hx with rfl | rfl | rfl | rfl | rfl | rfl
      · exact ⟨_, (hspec _ m1).1 _ a1, b1⟩
      · exact ⟨_, (hspec _ m2).1 _ a2, b2⟩
      · exact ⟨_, (hspec _ m3).1 _ a3, b3⟩
      · exact ⟨_, (hspec _ m4).1 _ a4, b4⟩
      · exact ⟨_, (hspec _ m5).1 _ a5, b5⟩
      · exact ⟨_, (hspec _ m6).1 _ a6, b6⟩
    · rintro ⟨hf, ⟨k1, j1, c1⟩, ⟨k2, j2, c2⟩⟩
      rw [(hnum _ (lit "-orb_num_1") (by decide)).2 _ j1] at c1
      rw [(hnum _ (lit "-orb_num_2") (by decide)).2 _ j2] at c2
      obtain ⟨y1, u1, w1⟩ := hf _ m1
      obtain ⟨y2, u2, w2⟩ := hf _ m2
      obtain ⟨y3, u3, w3⟩ := hf _ m3
      obtain ⟨y4, u4, w4⟩ := hf _ m4
      obtain ⟨y5, u5, w5⟩ := hf _ m5
      obtain ⟨y6, u6, w6⟩ := hf _ m6
      have z1 := useFile_ok.2 ⟨(hspec _ m1).2.2 _ u1 w1, w1⟩
      have z2 := useFile_ok.2 ⟨(hspec _ m2).2.2 _ u2 w2, w2⟩
      have z3 := useFile_ok.2 ⟨(hspec _ m3).2.2 _ u3 w3, w3⟩
      have z4 := useFile_ok.2 ⟨(hspec _ m4).2.2 _ u4 w4, w4⟩
      have z5 := useFile_ok.2 ⟨(hspec _ m5).2.2 _ u5 w5, w5⟩
      have z6 := useFile_ok.2 ⟨(hspec _ m6).2.2 _ u6 w6, w6⟩
      simp only [d1, d2, d3, d4, d5, d6] at z1 z2 z3 z4 z5 z6
      rw [z1, z2, z3, z4, z5, z6, useNum_ok.2 ⟨c1, rfl⟩, useNum_ok.2 ⟨c2, rfl⟩]
      exact ⟨_, rfl⟩
  · intro x hx hno
    have hnone : r x.1 = none := by
      cases hrx : r x.1 with
      | none => rfl
      | some y => exact absurd ((hspec x hx).1 y hrx) (hno y)
    have hthrow : ∀ ext o, (∃ y, useFile ext o = .ok y) ∨ (∃ e, useFile ext o = .throw e) := by
      intro ext o
      cases o with
      | none => exact .inr ⟨_, rfl⟩
      | some y =>
        unfold useFile; simp only
        split
        · exact .inl ⟨_, rfl⟩
        · exact .inr ⟨_, rfl⟩
    have hrt : (∀ x ∈ inputFiles, ∀ y, UsesFile fs as x.1 x.2.1 x.2.2 y → needed x.1 <:+ y) →
        ∀ x ∈ inputFiles, (r x.1 = none ∧ useFile (needed x.1) (r x.1) = .throw .runtimeError) ∨
          (∃ y, r x.1 = some y ∧ useFile (needed x.1) (r x.1) = .ok y) := by
      intro hgood x hx
      cases hrx : r x.1 with
      | none => exact .inl ⟨rfl, rfl⟩
      | some y => exact .inr ⟨y, rfl, useFile_ok.2 ⟨rfl, hgood x hx y ((hspec x hx).1 y hrx)⟩⟩
    have hbad : useFile (needed x.1) (r x.1) = .throw .runtimeError := by rw [hnone]; rfl
    simp only [inputFiles, List.mem_cons, List.not_mem_nil, or_false] at hx
    constructor
    · have bt : ∀ {β : Type} {ext : Str} {o : Option Str} {k : Str → Res β}, (∀ y, useFile ext o = .ok y → ∃ e, k y = .throw e) →
          ∃ e, (useFile ext o >>= k) = .throw e := by
        intro β ext o k hk
        rcases hthrow ext o with ⟨y, e1⟩ | ⟨e, e1⟩
        · rw [e1]; exact hk y e1
        · rw [e1]; exact ⟨e, rfl⟩
      refine bt (fun y1 e1 => ?_)
      refine bt (fun y2 e2 => ?_)
      refine bt (fun y3 e3 => ?_)
      refine bt (fun y4 e4 => ?_)
      refine bt (fun y5 e5 => ?_)
      refine bt (fun y6 e6 => ?_)
      exfalso
      rcases hx with rfl | rfl | rfl | rfl | rfl | rfl <;> simp only [d1, d2, d3, d4, d5, d6] at hbad
      · rw [e1] at hbad; cases hbad
      · rw [e2] at hbad; cases hbad
      · rw [e3] at hbad; cases hbad
      · rw [e4] at hbad; cases hbad
      · rw [e5] at hbad; cases hbad
      · rw [e6] at hbad; cases hbad
    · intro hgood
      have g1 := hrt hgood _ m1
      have g2 := hrt hgood _ m2
      have g3 := hrt hgood _ m3
      have g4 := hrt hgood _ m4
      have g5 := hrt hgood _ m5
      have g6 := hrt hgood _ m6
      simp only [d1, d2, d3, d4, d5, d6] at g1 g2 g3 g4 g5 g6
      rcases g1 with ⟨-, e1⟩ | ⟨y1, o1, e1⟩ <;> rw [e1] <;> simp only [Res.ok_bind, Res.throw_bind]
      rcases g2 with ⟨-, e2⟩ | ⟨y2, o2, e2⟩ <;> rw [e2] <;> simp only [Res.ok_bind, Res.throw_bind]
      rcases g3 with ⟨-, e3⟩ | ⟨y3, o3, e3⟩ <;> rw [e3] <;> simp only [Res.ok_bind, Res.throw_bind]
      rcases g4 with ⟨-, e4⟩ | ⟨y4, o4, e4⟩ <;> rw [e4] <;> simp only [Res.ok_bind, Res.throw_bind]
      rcases g5 with ⟨-, e5⟩ | ⟨y5, o5, e5⟩ <;> rw [e5] <;> simp only [Res.ok_bind, Res.throw_bind]
      rcases g6 with ⟨-, e6⟩ | ⟨y6, o6, e6⟩ <;> rw [e6] <;> simp only [Res.ok_bind, Res.throw_bind]
      exfalso
      rcases hx with rfl | rfl | rfl | rfl | rfl | rfl
      · rw [o1] at hnone; cases hnone
      · rw [o2] at hnone; cases hnone
      · rw [o3] at hnone; cases hnone
      · rw [o4] at hnone; cases hnone
      · rw [o5] at hnone; cases hnone
      · rw [o6] at hnone; cases hnone

/-- The hypotheses are met, and the parameters prepared, when only the three log files are named and the pun files lie
next to them. -/
example : ∃ q : Parser D, parse (fun _ => true) calcJ [lit "-l_P", lit "d/P.log", lit "-l_1", lit "d/1.log", lit "-l_2", lit "d/2.log"] = .ok q ∧
    ∃ par, prepareParameters q = .ok par ∧ par.pun1 = lit "d/1.pun" ∧ par.log2 = lit "d/2.log" := by
  have : (parse (fun _ => true) (calcJ (D := D)) [lit "-l_P", lit "d/P.log", lit "-l_1", lit "d/1.log", lit "-l_2", lit "d/2.log"] >>= prepareParameters) =
    .ok { Params.init with
      log1 := lit "d/1.log", log2 := lit "d/2.log", logP := lit "d/P.log", pun1 := lit "d/1.pun", pun2 := lit "d/2.pun", punP := lit "d/P.pun",
      spinP := lit "Alpha", spin1 := lit "Alpha", spin2 := lit "Alpha", orbType1 := lit "HOMO", orbType2 := lit "HOMO", citation := some false } := by
    kernel_rfl
  rw [Res.bind_eq_ok] at this
  obtain ⟨q, h1, h2⟩ := this
  exact ⟨q, h1, _, h2, rfl, rfl⟩

/-- C64 (which of several sister files): for a pun flag not given, the file next to the log file with extension `.pun` is
used if it exists. -/
theorem C64_sister_pun (fs : FS) (args : List Str) (hfit : ∀ v ∈ args, v.length + 4 < 2 ^ 63) (q : Parser D)
    (as : List Asg) (h : parse fs calcJ args = .ok q) (hr : Reads args as)
    (hone : ∀ x ∈ inputFiles, (given x.1 as).length ≤ 1)
    (hsp : ∀ x ∈ inputFiles, ∀ v ∈ given x.1 as, ∀ c ∈ v, White c = false) (par : Params.Params)
    (hp : prepareParameters q = .ok par) (dir core : Str) (hn : given (lit "--pun_1") as = [])
    (hg : given (lit "--log_1") as = [dir ++ core ++ lit ".log"]) (hpp : PathParts (dir ++ core ++ lit ".log") dir core (lit ".log")) :
    par.pun1 = dir ++ core ++ lit ".pun" := by
  have m2 : (lit "--pun_1", lit "--log_1", [lit ".orb", lit ".7", lit ".pun"]) ∈ inputFiles := by decide
  obtain ⟨hu, hs⟩ := ((C64_files_partial fs args hfit q as h hr hone hsp).1 par hp).1 _ m2
  have e : fileOf par (lit "--pun_1") = par.pun1 := by
    unfold fileOf
    rw [if_neg (by decide), if_pos rfl]
  simp only [e] at hu hs
  have k2 : needed (lit "--pun_1") = lit ".pun" := by decide
  rw [k2] at hs
  have e3 : lit ".pun" = lit ".pu" ++ ['n'] := by decide
  generalize par.pun1 = x at *
  cases hu with
  | explicit hv _ => rw [hn] at hv; cases hv
  | @sister w dir' core' ext' e' _ hw hp' hm _ =>
    rw [hg] at hw; simp at hw
    subst hw
    rw [← List.append_assoc] at hp'
    obtain ⟨rfl, rfl, rfl⟩ := hpp.unique hp'
    simp only [List.mem_cons, List.not_mem_nil, or_false] at hm
    rcases hm with rfl | rfl | rfl
    · have e4 : lit ".orb" = lit ".or" ++ ['b'] := by decide
      rw [e3, e4] at hs
      exact absurd (suffix_last hs) (by decide)
    · have e4 : lit ".7" = lit "." ++ ['7'] := by decide
      rw [e3, e4] at hs
      exact absurd (suffix_last hs) (by decide)
    · rfl

/-- C64 (refuted, white space): with a blank in the path of a log file the sister file is not found; instead another file,
which need not exist, is used. -/
theorem C64_refuted_blank :
    (parse (fun f => f ≠ lit "x.pun") (calcJ (D := D))
      [lit "-l_P", lit "P.log", lit "-l_1", lit "x.pun y.log", lit "-l_2", lit "2.log"] >>= prepareParameters) =
    .ok { Params.init with
      log1 := lit "x.pun y.log", log2 := lit "2.log", logP := lit "P.log", pun1 := lit "x.pun", pun2 := lit "2.pun", punP := lit "P.pun",
      spinP := lit "Alpha", spin1 := lit "Alpha", spin2 := lit "Alpha", orbType1 := lit "HOMO", orbType2 := lit "HOMO", citation := some false } := by
  kernel_rfl

/-- C64 (refuted, repeated flag): if a file flag is given twice, the first value exists and the second does not, the second
is used although it does not exist and the sister file does. -/
theorem C64_refuted_repeated :
    (parse (fun f => f ≠ lit "b.pun") (calcJ (D := D))
      [lit "-l_P", lit "P.log", lit "-l_1", lit "1.log", lit "-l_2", lit "2.log", lit "-p_1", lit "a.pun", lit "-p_1", lit "b.pun"]
      >>= prepareParameters) =
    .ok { Params.init with
      log1 := lit "1.log", log2 := lit "2.log", logP := lit "P.log", pun1 := lit "b.pun", pun2 := lit "2.pun", punP := lit "P.pun",
      spinP := lit "Alpha", spin1 := lit "Alpha", spin2 := lit "Alpha", orbType1 := lit "HOMO", orbType2 := lit "HOMO", citation := some false } := by
  kernel_rfl

/-! ### C65 -/

/-- C65 (refuted): a coefficient file with extension `.orb` or `.7` is accepted by the parser, but if it exists and is the
last one given for its flag, no parameters are prepared. -/
theorem C65_refuted (fs : FS) (args : List Str) (hfit : ∀ v ∈ args, v.length + 4 < 2 ^ 63) (q : Parser D)
    (as : List Asg) (h : parse fs calcJ args = .ok q) (hr : Reads args as)
    (hsp : ∀ x ∈ inputFiles, ∀ v ∈ given x.1 as, ∀ c ∈ v, White c = false)
    (f : Str) (hf : f ∈ [lit "--pun_P", lit "--pun_1", lit "--pun_2"]) (v dir core ext : Str)
    (hl : (given f as).getLast? = some v) (hp : PathParts v dir core ext) (hx : ext = lit ".orb" ∨ ext = lit ".7")
    (he : fs v = true) : ∀ par, prepareParameters q ≠ .ok par := by
  obtain ⟨ha, hv⟩ := facts fs args hfit q as h hr
  have hin : ∀ f ∈ fileNames, ∃ x ∈ inputFiles, x.1 = f := by decide
  obtain ⟨r, hc, heq⟩ := prepare_eq ha (fun f hf v hv => hfit v (given_mem hr hv))
    (fun f hf => by obtain ⟨x, hx, rfl⟩ := hin f hf; exact hsp x hx) (type_ok hv)
  have hrf : r f = some v := by
    have : ∃ x ∈ inputFiles, x.1 = f := by
      have : ∀ f ∈ [lit "--pun_P", lit "--pun_1", lit "--pun_2"], ∃ x ∈ inputFiles, x.1 = f := by decide
      exact this f hf
    obtain ⟨x, hx, rfl⟩ := this
    have hc := hc x hx
    unfold Chosen at hc
    rw [if_pos (List.any_eq_true.2 ⟨v, List.mem_of_getLast? hl, he⟩)] at hc
    rw [hc, hl]
  have hns : ¬ lit ".pun" <:+ v := by
    intro hs
    have e3 : lit ".pun" = lit ".pu" ++ ['n'] := by decide
    rw [hp.eq] at hs
    rcases hx with rfl | rfl
    · have e4 : lit ".orb" = lit ".or" ++ ['b'] := by decide
      rw [e3, e4] at hs
      exact absurd (suffix_last hs) (by decide)
    · have e4 : lit ".7" = lit "." ++ ['7'] := by decide
      rw [e3, e4] at hs
      exact absurd (suffix_last hs) (by decide)
  intro par hpar
  rw [heq] at hpar
  simp only [Res.bind_eq_ok, useFile_ok, useNum_ok] at hpar
  obtain ⟨pP, ⟨a1, b1⟩, p1, ⟨a2, b2⟩, p2, ⟨a3, b3⟩, -⟩ := hpar
  simp only [List.mem_cons, List.not_mem_nil, or_false] at hf
  rcases hf with rfl | rfl | rfl
  · rw [hrf] at a1; cases a1; exact hns b1
  · rw [hrf] at a2; cases a2; exact hns b2
  · rw [hrf] at a3; cases a3; exact hns b3

/-- C65 (an instance): everything exists, `1.orb` is accepted on the command line, and the preparation throws. -/
theorem C65_refuted_instance :
    (∃ q, parse (fun _ => true) (calcJ (D := D))
      [lit "-p_P", lit "P.pun", lit "-p_1", lit "1.orb", lit "-p_2", lit "2.pun"] = .ok q ∧ prepareParameters q = .throw .invalidArgument) := by
  have h1 : (parse (fun _ => true) (calcJ (D := D)) [lit "-p_P", lit "P.pun", lit "-p_1", lit "1.orb", lit "-p_2", lit "2.pun"] >>= prepareParameters)
      = .throw .invalidArgument := by kernel_rfl
  have h2 : ∃ q, parse (fun _ => true) (calcJ (D := D)) [lit "-p_P", lit "P.pun", lit "-p_1", lit "1.orb", lit "-p_2", lit "2.pun"] = .ok q := by
    have h3 : (parse (fun _ => true) (calcJ (D := D)) [lit "-p_P", lit "P.pun", lit "-p_1", lit "1.orb", lit "-p_2", lit "2.pun"] >>= fun _ => .ok ())
      = .ok () := by kernel_rfl
    rw [Res.bind_eq_ok] at h3
    obtain ⟨q, hq, -⟩ := h3
    exact ⟨q, hq⟩
  obtain ⟨q, hq⟩ := h2
  rw [hq] at h1
  exact ⟨q, hq, h1⟩

/-- C65 (what holds): explicitly given `.pun` files, with the log files given too, all existing, are always accepted when
the orbital numbers have the right sign. -/
theorem C65_pun_partial (fs : FS) (args : List Str) (hfit : ∀ v ∈ args, v.length + 4 < 2 ^ 63) (q : Parser D)
    (as : List Asg) (h : parse fs calcJ args = .ok q) (hr : Reads args as)
    (hsp : ∀ x ∈ inputFiles, ∀ v ∈ given x.1 as, ∀ c ∈ v, White c = false)
    (hall : ∀ x ∈ inputFiles, ∃ v, given x.1 as = [v] ∧ fs v = true ∧ needed x.1 <:+ v)
    (h1 : ∃ n, AskedNum as (lit "--orbital_num_1") n ∧ SignOk (askedType as (lit "--orbital_type_1")) n)
    (h2 : ∃ n, AskedNum as (lit "--orbital_num_2") n ∧ SignOk (askedType as (lit "--orbital_type_2")) n) :
    ∃ par, prepareParameters q = .ok par ∧ ∀ x ∈ inputFiles, given x.1 as = [fileOf par x.1] := by
  have hone : ∀ x ∈ inputFiles, (given x.1 as).length ≤ 1 := by
    intro x hx; obtain ⟨v, hv, -⟩ := hall x hx; rw [hv]; simp
  obtain ⟨c1, c2, -⟩ := C64_files_partial fs args hfit q as h hr hone hsp
  obtain ⟨par, hp⟩ := c2.2 ⟨fun x hx => by
    obtain ⟨v, hv, he, hs⟩ := hall x hx
    exact ⟨v, .explicit (by simp [hv]) he, hs⟩, h1, h2⟩
  refine ⟨par, hp, fun x hx => ?_⟩
  obtain ⟨v, hv, he, hs⟩ := hall x hx
  have := ((c1 par hp).1 x hx).1
  generalize fileOf par x.1 = y at *
  cases this with
  | explicit hy _ => rw [hv] at hy ⊢; simp at hy; rw [hy]
  | sister hn => rw [hn v (by simp [hv])] at he; cases he

/-! ### C66 -/

private theorem prepare_orb {q : Parser D} {par : Params.Params} (h : prepareParameters q = .ok par) :
    (∃ n, getStr q (lit "--orbital_type_1") = .ok par.orbType1 ∧ orbNumFor q par.orbType1 (lit "--orbital_num_1") = .ok n ∧
      par.orbNum1 = n.getD 0) ∧
    (∃ n, getStr q (lit "--orbital_type_2") = .ok par.orbType2 ∧ orbNumFor q par.orbType2 (lit "--orbital_num_2") = .ok n ∧
      par.orbNum2 = n.getD 0) := by
  unfold prepareParameters at h
  simp only [Params.setPunP, Params.setPun1, Params.setPun2, Params.setLogP, Params.setLog1, Params.setLog2, Res.bind_eq_ok, Res.ok.injEq] at h
  obtain ⟨_, _, _, _, _, ⟨_, _, rfl⟩, _, _, _, ⟨_, _, rfl⟩, _, _, _, ⟨_, _, rfl⟩, _, _, _, ⟨_, _, rfl⟩, _, _, _, ⟨_, _, rfl⟩, _, _, _, ⟨_, _, rfl⟩,
    _, _, _, _, _, _, _, _, _, _, t1, ht1, n1, hn1, t2, ht2, n2, hn2, h⟩ := h
  subst h
  exact ⟨⟨n1, ht1, hn1, rfl⟩, ⟨n2, ht2, hn2, rfl⟩⟩

/-- C66: whatever the file names, on every accepted command line the prepared orbital numbers are the ones asked for and
have the sign their type demands; if a number asked for does not, no parameters are prepared. -/
theorem C66_sign (fs : FS) (args : List Str) (hfit : ∀ v ∈ args, v.length + 4 < 2 ^ 63) (q : Parser D)
    (as : List Asg) (h : parse fs calcJ args = .ok q) (hr : Reads args as) :
    (∀ par, prepareParameters q = .ok par →
      (par.orbType1 = lit "HOMO" ∧ par.orbNum1 ≤ 0 ∨ par.orbType1 = lit "LUMO" ∧ 0 ≤ par.orbNum1) ∧
      (par.orbType2 = lit "HOMO" ∧ par.orbNum2 ≤ 0 ∨ par.orbType2 = lit "LUMO" ∧ 0 ≤ par.orbNum2) ∧
      par.orbType1 = askedType as (lit "--orbital_type_1") ∧ AskedNum as (lit "--orbital_num_1") par.orbNum1 ∧
      par.orbType2 = askedType as (lit "--orbital_type_2") ∧ AskedNum as (lit "--orbital_num_2") par.orbNum2) ∧
    ((∃ n, AskedNum as (lit "--orbital_num_1") n ∧ ¬ SignOk (askedType as (lit "--orbital_type_1")) n) ∨
      (∃ n, AskedNum as (lit "--orbital_num_2") n ∧ ¬ SignOk (askedType as (lit "--orbital_type_2")) n) →
      ∀ par, prepareParameters q ≠ .ok par) := by
  obtain ⟨ha, hv⟩ := facts fs args hfit q as h hr
  have hnum : ∀ f s, (f, s, Kind.onum) ∈ valueFlags →
      AskedNum as f (numOf as f) ∧ ∀ n, AskedNum as f n → n = numOf as f := by
    intro f s hf
    unfold numOf AskedNum
    cases hl : (given f as).getLast? with
    | none => exact ⟨rfl, fun n hn => hn⟩
    | some v => exact intText_intOf (hv f s _ hf v (List.mem_of_getLast? hl))
  have hty := type_ok hv
  have gs : ∀ f v w, q.strs.get f = some v → getStr q f = .ok w → w = v := by
    intro f v w hv hw; unfold getStr at hw; rw [hv] at hw; cases hw; rfl
  have hsign : ∀ t n, (t = lit "HOMO" ∨ t = lit "LUMO") → SignOk t n → (t = lit "HOMO" ∧ n ≤ 0 ∨ t = lit "LUMO" ∧ 0 ≤ n) := by
    rintro t n (rfl | rfl) ⟨h1, h2⟩
    · exact .inl ⟨rfl, h1 rfl⟩
    · exact .inr ⟨rfl, h2 rfl⟩
  have main : ∀ par, prepareParameters q = .ok par →
      (par.orbType1 = askedType as (lit "--orbital_type_1") ∧ par.orbNum1 = numOf as (lit "--orbital_num_1") ∧ SignOk par.orbType1 par.orbNum1) ∧
      (par.orbType2 = askedType as (lit "--orbital_type_2") ∧ par.orbNum2 = numOf as (lit "--orbital_num_2") ∧ SignOk par.orbType2 par.orbNum2) := by
    intro par hpar
    obtain ⟨⟨n1, a1, b1, c1⟩, n2, a2, b2, c2⟩ := prepare_orb hpar
    have e1 : par.orbType1 = askedType as (lit "--orbital_type_1") := gs _ _ _ (ha.otype _ (lit "-orb_ty_1") (by decide)) a1
    have e2 : par.orbType2 = askedType as (lit "--orbital_type_2") := gs _ _ _ (ha.otype _ (lit "-orb_ty_2") (by decide)) a2
    rw [e1, orbNumFor_eq q _ _ _ (ha.onum _ (lit "-orb_num_1") (by decide)) (hty _ (.inl rfl)), Res.bind_eq_ok] at b1
    rw [e2, orbNumFor_eq q _ _ _ (ha.onum _ (lit "-orb_num_2") (by decide)) (hty _ (.inr rfl)), Res.bind_eq_ok] at b2
    obtain ⟨k1, u1, v1⟩ := b1
    obtain ⟨k2, u2, v2⟩ := b2
    cases v1; cases v2
    rw [useNum_ok] at u1 u2
    obtain ⟨s1, rfl⟩ := u1
    obtain ⟨s2, rfl⟩ := u2
    simp only [Option.getD_some] at c1 c2
    refine ⟨⟨e1, c1, ?_⟩, e2, c2, ?_⟩
    · rw [e1, c1]; exact s1
    · rw [e2, c2]; exact s2
  constructor
  · intro par hpar
    obtain ⟨⟨e1, f1, s1⟩, e2, f2, s2⟩ := main par hpar
    refine ⟨hsign _ _ (by rw [e1]; exact hty _ (.inl rfl)) s1, hsign _ _ (by rw [e2]; exact hty _ (.inr rfl)) s2, e1, ?_, e2, ?_⟩
    · rw [f1]; exact (hnum _ (lit "-orb_num_1") (by decide)).1
    · rw [f2]; exact (hnum _ (lit "-orb_num_2") (by decide)).1
  · intro hbad par hpar
    obtain ⟨⟨e1, f1, s1⟩, e2, f2, s2⟩ := main par hpar
    rcases hbad with ⟨n, hn, hb⟩ | ⟨n, hn, hb⟩
    · apply hb; rw [(hnum _ (lit "-orb_num_1") (by decide)).2 n hn, ← e1, ← f1]; exact s1
    · apply hb; rw [(hnum _ (lit "-orb_num_2") (by decide)).2 n hn, ← e2, ← f2]; exact s2

/-- The parameters are prepared or an exception is thrown. -/
theorem prepare_total (fs : FS) (args : List Str) (hfit : ∀ v ∈ args, v.length + 4 < 2 ^ 63) (q : Parser D)
    (as : List Asg) (h : parse fs calcJ args = .ok q) (hr : Reads args as)
    (hsp : ∀ x ∈ inputFiles, ∀ v ∈ given x.1 as, ∀ c ∈ v, White c = false) :
    (∃ par, prepareParameters q = .ok par) ∨ ∃ e, prepareParameters q = .throw e := by
  obtain ⟨ha, hv⟩ := facts fs args hfit q as h hr
  have hin : ∀ f ∈ fileNames, ∃ x ∈ inputFiles, x.1 = f := by decide
  obtain ⟨r, -, he⟩ := prepare_eq ha (fun f hf v hv => hfit v (given_mem hr hv))
    (fun f hf => by obtain ⟨x, hx, rfl⟩ := hin f hf; exact hsp x hx) (type_ok hv)
  have hf : ∀ ext o, (∃ y, useFile ext o = .ok y) ∨ (∃ e, useFile ext o = .throw e) := by
    intro ext o
    cases o with
    | none => exact .inr ⟨_, rfl⟩
    | some y =>
      unfold useFile; simp only
      split
      · exact .inl ⟨_, rfl⟩
      · exact .inr ⟨_, rfl⟩
  have hn : ∀ t n, (∃ y, useNum t n = .ok y) ∨ (∃ e, useNum t n = .throw e) := by
    intro t n; unfold useNum; split
    · exact .inl ⟨_, rfl⟩
    · exact .inr ⟨_, rfl⟩
  have step : ∀ {β γ : Type} {x : Res β} {f : β → Res γ}, ((∃ y, x = .ok y) ∨ ∃ e, x = .throw e) →
      (∀ y, (∃ z, f y = .ok z) ∨ ∃ e, f y = .throw e) → (∃ z, (x >>= f) = .ok z) ∨ ∃ e, (x >>= f) = .throw e := by
    rintro β γ x f (⟨y, rfl⟩ | ⟨e, rfl⟩) h
    · rw [Res.ok_bind]; exact h y
    · exact .inr ⟨e, rfl⟩
  rw [he]
  exact step (hf _ _) fun _ => step (hf _ _) fun _ => step (hf _ _) fun _ => step (hf _ _) fun _ => step (hf _ _) fun _ => step (hf _ _) fun _ =>
    step (hn _ _) fun _ => step (hn _ _) fun _ => .inl ⟨_, rfl⟩

/-- C66 (which exception): when all six files are there, a number of the wrong sign gives `invalid_argument`. -/
theorem C66_invalid (fs : FS) (args : List Str) (hfit : ∀ v ∈ args, v.length + 4 < 2 ^ 63) (q : Parser D)
    (as : List Asg) (h : parse fs calcJ args = .ok q) (hr : Reads args as)
    (hone : ∀ x ∈ inputFiles, (given x.1 as).length ≤ 1)
    (hsp : ∀ x ∈ inputFiles, ∀ v ∈ given x.1 as, ∀ c ∈ v, White c = false)
    (hf : ∀ x ∈ inputFiles, ∃ y, UsesFile fs as x.1 x.2.1 x.2.2 y ∧ needed x.1 <:+ y)
    (hbad : (∃ n, AskedNum as (lit "--orbital_num_1") n ∧ ¬ SignOk (askedType as (lit "--orbital_type_1")) n) ∨
      (∃ n, AskedNum as (lit "--orbital_num_2") n ∧ ¬ SignOk (askedType as (lit "--orbital_type_2")) n)) :
    prepareParameters q = .throw .invalidArgument := by
  obtain ⟨ha, hv⟩ := facts fs args hfit q as h hr
  have hno := (C66_sign fs args hfit q as h hr).2 hbad
  have hin : ∀ f ∈ fileNames, ∃ x ∈ inputFiles, x.1 = f := by decide
  obtain ⟨r, hc, he⟩ := prepare_eq ha (fun f hf v hv => hfit v (given_mem hr hv))
    (fun f hf => by obtain ⟨x, hx, rfl⟩ := hin f hf; exact hsp x hx) (type_ok hv)
  have hcomp : ∀ x ∈ inputFiles, ∃ y ∈ inputFiles, y.1 = x.2.1 := by decide
  have huse : ∀ x ∈ inputFiles, ∃ y, useFile (needed x.1) (r x.1) = .ok y := by
    intro x hx
    obtain ⟨y, hy, hs⟩ := hf x hx
    obtain ⟨z, hz, e⟩ := hcomp x hx
    exact ⟨y, useFile_ok.2 ⟨(chosen_spec hx (hc x hx) (hone x hx) (by rw [← e]; exact hone z hz)).2.2 y hy hs, hs⟩⟩
  obtain ⟨y1, z1⟩ := huse (lit "--pun_P", lit "--log_P", [lit ".orb", lit ".7", lit ".pun"]) (by decide)
  obtain ⟨y2, z2⟩ := huse (lit "--pun_1", lit "--log_1", [lit ".orb", lit ".7", lit ".pun"]) (by decide)
  obtain ⟨y3, z3⟩ := huse (lit "--pun_2", lit "--log_2", [lit ".orb", lit ".7", lit ".pun"]) (by decide)
  obtain ⟨y4, z4⟩ := huse (lit "--log_P", lit "--pun_P", [lit ".log"]) (by decide)
  obtain ⟨y5, z5⟩ := huse (lit "--log_1", lit "--pun_1", [lit ".log"]) (by decide)
  obtain ⟨y6, z6⟩ := huse (lit "--log_2", lit "--pun_2", [lit ".log"]) (by decide)
  have d1 : needed (lit "--pun_P") = lit ".pun" := by decide
  have d2 : needed (lit "--pun_1") = lit ".pun" := by decide
  have d3 : needed (lit "--pun_2") = lit ".pun" := by decide
  have d4 : needed (lit "--log_P") = lit ".log" := by decide
  have d5 : needed (lit "--log_1") = lit ".log" := by decide
  have d6 : needed (lit "--log_2") = lit ".log" := by decide
  simp only [d1, d2, d3, d4, d5, d6] at z1 z2 z3 z4 z5 z6
  rw [he, z1, z2, z3, z4, z5, z6] at hno ⊢
  simp only [Res.ok_bind] at hno ⊢
  have hu : ∀ t n, useNum t n = .throw .invalidArgument ∨ useNum t n = .ok n := by
    intro t n; unfold useNum; split
    · exact .inr rfl
    · exact .inl rfl
  rcases hu (askedType as (lit "--orbital_type_1")) (numOf as (lit "--orbital_num_1")) with u | u
  · rw [u]; rfl
  · rw [u] at hno ⊢
    simp only [Res.ok_bind] at hno ⊢
    rcases hu (askedType as (lit "--orbital_type_2")) (numOf as (lit "--orbital_num_2")) with w | w
    · rw [w]; rfl
    · rw [w] at hno; exact absurd rfl (hno _)

/-- An instance: a HOMO with a positive number. -/
example : (parse (fun _ => true) (calcJ (D := D))
    [lit "-l_P", lit "P.log", lit "-l_1", lit "1.log", lit "-l_2", lit "2.log", lit "-orb_num_1", lit "1"] >>= prepareParameters)
    = .throw .invalidArgument := by kernel_rfl

end
end Verif.Args
