import Verif.Props.Bits
import Verif.Props.Files
import Verif.Props.CommandLine
/-
Property C103: from the command line to the printed numbers.
-/
namespace Verif.Args
open Strings

theorem IntText.unique {v : Str} {m n : Int} (h : IntText v m) (h' : IntText v n) : m = n := by
  have := (strtol_of h).symm.trans (strtol_of h')
  simpa using this

theorem AskedNum.unique {as : List Asg} {f : Str} {m n : Int} (h : AskedNum as f m) (h' : AskedNum as f n) : m = n := by
  unfold AskedNum at h h'
  cases e : (given f as).getLast? with
  | none => rw [e] at h h'; exact h.trans h'.symm
  | some v => rw [e] at h h'; exact h.unique h'

theorem mem_le_one {l : List Str} (h : l.length ≤ 1) {a b : Str} (ha : a ∈ l) (hb : b ∈ l) : a = b := by
  match l, h with
  | [x], _ => simp at ha hb; rw [ha, hb]

/-- Only one file with the right ending can be meant. -/
theorem UsesFile.unique {fs : FS} {as : List Asg} {x : Str × Str × List Str} (hx : x ∈ inputFiles) (hone : ∀ y ∈ inputFiles, (given y.1 as).length ≤ 1)
    {y z : Str} (h : UsesFile fs as x.1 x.2.1 x.2.2 y) (hy : needed x.1 <:+ y) (h' : UsesFile fs as x.1 x.2.1 x.2.2 z) (hz : needed x.1 <:+ z) : y = z := by
  have hcomp : ∀ x ∈ inputFiles, ∃ y ∈ inputFiles, y.1 = x.2.1 := by decide
  obtain ⟨c, hc, ec⟩ := hcomp x hx
  have two : (given x.2.1 as).length ≤ 1 := by rw [← ec]; exact hone c hc
  have kk : ∀ x ∈ inputFiles, ∀ e ∈ x.2.2, e.getLast? = (needed x.1).getLast? → e = needed x.1 := by decide
  have nn : ∀ x ∈ inputFiles, needed x.1 ≠ [] ∧ ∀ e ∈ x.2.2, e ≠ [] := by decide
  have key : ∀ {a e : Str}, e ∈ x.2.2 → needed x.1 <:+ a ++ e → e = needed x.1 := by
    intro a e he hs
    apply kk x hx e he
    obtain ⟨t, ht⟩ := hs
    have := congrArg List.getLast? ht
    rw [List.getLast?_append_of_ne_nil _ (nn x hx).1, List.getLast?_append_of_ne_nil _ ((nn x hx).2 e he)] at this
    exact this.symm
  cases h with
  | explicit hv he =>
    cases h' with
    | explicit hv' he' => exact mem_le_one (hone x hx) hv hv'
    | sister hn => rw [hn _ hv] at he; cases he
  | sister hn hw hp hm he =>
    cases h' with
    | explicit hv' he' => rw [hn _ hv'] at he'; cases he'
    | sister hn' hw' hp' hm' he' =>
      rw [mem_le_one two hw hw'] at hp
      obtain ⟨rfl, rfl, rfl⟩ := hp.unique hp'
      rw [key hm hy, key hm' hz]

end Verif.Args

namespace Verif
open Strings Readers QC Mat Log Pun Job Args

section
variable {α β : Type} [Zero α] [One α] [Add α] [Sub α] [Mul α] [Div α] [Num α] [DecidableEq β] (D : Type) [Args.Dbl D]

/-- An intelligible command line: every flag is followed by a value of its kind, the flags of files are given at most once, and no file
name has white space in it. -/
structure Intelligible (args : List Str) (as : List Asg) : Prop where
  fits : ∀ v ∈ args, v.length + 4 < 2 ^ 63
  reads : Reads args as
  said : as ≠ []
  ok : ∀ a ∈ as, a.Ok
  once : ∀ x ∈ inputFiles, (given x.1 as).length ≤ 1
  plain : ∀ x ∈ inputFiles, ∀ v ∈ given x.1 as, ∀ c ∈ v, White c = false

/-- `file f` is the file to use for the flag `f`: the one given, or else the one next to that given for its companion. -/
def FilesMeant (files : Str → Option Str) (as : List Asg) (file : Str → Str) : Prop :=
  ∀ x ∈ inputFiles, UsesFile (fsOf files) as x.1 x.2.1 x.2.2 (file x.1) ∧ needed x.1 <:+ file x.1

theorem params_of {files : Str → Option Str} {args : List Str} {as : List Asg} (hi : Intelligible args as) {file : Str → Str}
    (hf : FilesMeant files as file) {n1 n2 : Int} (a1 : AskedNum as (lit "--orbital_num_1") n1) (a2 : AskedNum as (lit "--orbital_num_2") n2)
    (g1 : SignOk (askedType as (lit "--orbital_type_1")) n1) (g2 : SignOk (askedType as (lit "--orbital_type_2")) n2) :
    ∃ (q : Parser D) (par : Params.Params), Args.parse (fsOf files) Args.calcJ args = .ok q ∧ Args.prepareParameters q = .ok par ∧ Requests as par ∧
      par.orbNum1 = n1 ∧ par.orbNum2 = n2 ∧ ∀ x ∈ inputFiles, fileOf par x.1 = file x.1 := by
  obtain ⟨q, hq⟩ := (C59_accepted (D := D) (fsOf files) args (fun v hv => by unfold Fits; have := hi.fits v hv; omega)).1.2
    ⟨as, hi.reads, hi.said, hi.ok⟩
  obtain ⟨h1, h2, -⟩ := C64_files_partial (fsOf files) args hi.fits q as hq hi.reads hi.once hi.plain
  obtain ⟨par, hpar⟩ := h2.2 ⟨fun x hx => ⟨_, hf x hx⟩, ⟨n1, a1, g1⟩, ⟨n2, a2, g2⟩⟩
  obtain ⟨b1, b2, -, -⟩ := h1 par hpar
  exact ⟨q, par, hq, hpar, b2, b2.num1.unique a1, b2.num2.unique a2,
    fun x hx => UsesFile.unique hx hi.once (b1 x hx).1 (b1 x hx).2 (hf x hx).1 (hf x hx).2⟩

theorem signOk_of {orbs : Int × Int} {kind : Str} {n row : Int} (h : NamesOrbital orbs kind n row) : SignOk kind n := by
  rcases h with ⟨rfl, h, -, -⟩ | ⟨rfl, h, -, -⟩
  · exact ⟨fun _ => h, fun e => absurd e (by decide)⟩
  · exact ⟨fun e => absurd e (by decide), fun _ => h⟩

/-- C103: an intelligible command line, with the files it means in place, gives the numbers of the two orbitals it asks for. -/
theorem C103_numbers (tos : α → β) (files : Str → Option Str) {args : List Str} {as : List Asg} (hi : Intelligible args as) {file : Str → Str}
    (hf : FilesMeant files as file) (cp : turnedOn (lit "--counter_poise") as = false)
    {spinP spin1 spin2 : Log.Spin} (sP : askedSpin as (lit "--spin_P") = spinP.name) (s1 : askedSpin as (lit "--spin_1") = spin1.name)
    (s2 : askedSpin as (lit "--spin_2") = spin2.name)
    {orbs1 orbs2 : List (Orbital α)} {es1 es2 esP : List EnergyLine} {rows1 rows2 : List (α × α × α)} {b1 b2 : List Int} {C s : Int → Int → α}
    (m1 : MonomerFiles files (file (lit "--pun_1")) (file (lit "--log_1")) spin1 b1.sum orbs1 es1 rows1)
    (m2 : MonomerFiles files (file (lit "--pun_2")) (file (lit "--log_2")) spin2 b2.sum orbs2 es2 rows2)
    (d : DimerFiles tos files (file (lit "--pun_P")) (file (lit "--log_P")) spinP (rows1 ++ rows2) (b1 ++ b2) (energies esP).length C s esP)
    (hb1 : ∀ b ∈ b1, 1 ≤ b) (hb2 : ∀ b ∈ b2, 1 ≤ b) (l1 : b1.length = rows1.length) (l2 : b2.length = rows2.length)
    (ne1 : rows1 ≠ []) (ne2 : rows2 ≠ [])
    {n1 n2 row1 row2 : Int} (a1 : AskedNum as (lit "--orbital_num_1") n1) (a2 : AskedNum as (lit "--orbital_num_2") n2)
    (r1 : NamesOrbital ((energies es1).length, occupied es1) (askedType as (lit "--orbital_type_1")) n1 row1)
    (r2 : NamesOrbital ((energies es2).length, occupied es2) (askedType as (lit "--orbital_type_2")) n2 row2)
    (hr1 : 1 ≤ row1 ∧ row1 ≤ orbs1.length) (hr2 : 1 ≤ row2 ∧ row2 ≤ orbs2.length) :
    ∃ par, Ends (fun fuel => calcJRun D tos files fuel args)
      (.ok (par, Machine.jobReport false (coefOf orbs1 row1) (coefOf orbs2 row2) b1.sum (energies esP).length (b1 ++ b2).sum C s esP)) := by
  obtain ⟨q, par, hq, hpar, req, e1, e2, hfile⟩ := params_of D hi hf a1 a2 (signOk_of r1) (signOk_of r2)
  have f1 : par.punP = file (lit "--pun_P") := hfile (lit "--pun_P", lit "--log_P", [lit ".orb", lit ".7", lit ".pun"]) (by decide)
  have f2 : par.pun1 = file (lit "--pun_1") := hfile (lit "--pun_1", lit "--log_1", [lit ".orb", lit ".7", lit ".pun"]) (by decide)
  have f3 : par.pun2 = file (lit "--pun_2") := hfile (lit "--pun_2", lit "--log_2", [lit ".orb", lit ".7", lit ".pun"]) (by decide)
  have f4 : par.logP = file (lit "--log_P") := hfile (lit "--log_P", lit "--pun_P", [lit ".log"]) (by decide)
  have f5 : par.log1 = file (lit "--log_1") := hfile (lit "--log_1", lit "--pun_1", [lit ".log"]) (by decide)
  have f6 : par.log2 = file (lit "--log_2") := hfile (lit "--log_2", lit "--pun_2", [lit ".log"]) (by decide)
  rw [← f2, ← f5] at m1
  rw [← f3, ← f6] at m2
  rw [← f1, ← f4] at d
  rw [← req.type1, ← e1] at r1
  rw [← req.type2, ← e2] at r2
  exact ⟨par, C99_files tos files args hq hpar (req.counterPoise.trans cp) (req.spinP.trans sP) (req.spin1.trans s1) (req.spin2.trans s2)
    m1 m2 d hb1 hb2 l1 l2 ne1 ne2 r1 r2 hr1 hr2⟩

/-- C103 (counterpoise). -/
theorem C103_numbers_cp (tos : α → β) (files : Str → Option Str) {args : List Str} {as : List Asg} (hi : Intelligible args as) {file : Str → Str}
    (hf : FilesMeant files as file) (cp : turnedOn (lit "--counter_poise") as = true)
    {spinP spin1 spin2 : Log.Spin} (sP : askedSpin as (lit "--spin_P") = spinP.name) (s1 : askedSpin as (lit "--spin_1") = spin1.name)
    (s2 : askedSpin as (lit "--spin_2") = spin2.name)
    {orbs1 : List (Orbital α)} {es1 es2 esP : List EnergyLine} {rows : List (α × α × α)} {basis : List Int} {N2 : Nat} {c2 C s : Int → Int → α}
    (m1 : MonomerFiles files (file (lit "--pun_1")) (file (lit "--log_1")) spin1 basis.sum orbs1 es1 rows)
    (m2 : ListedFiles tos files (file (lit "--pun_2")) (file (lit "--log_2")) spin2 rows basis N2 c2 es2)
    (d : DimerFiles tos files (file (lit "--pun_P")) (file (lit "--log_P")) spinP rows basis (energies esP).length C s esP)
    (hb : ∀ b ∈ basis, 1 ≤ b) (hl : basis.length = rows.length) (ne : rows ≠ [])
    {n1 n2 row1 row2 : Int} (a1 : AskedNum as (lit "--orbital_num_1") n1) (a2 : AskedNum as (lit "--orbital_num_2") n2)
    (r1 : NamesOrbital ((energies es1).length, occupied es1) (askedType as (lit "--orbital_type_1")) n1 row1)
    (r2 : NamesOrbital ((energies es2).length, occupied es2) (askedType as (lit "--orbital_type_2")) n2 row2)
    (hr1 : 1 ≤ row1 ∧ row1 ≤ orbs1.length) (hr2 : 1 ≤ row2 ∧ row2 ≤ N2) :
    ∃ par, Ends (fun fuel => calcJRun D tos files fuel args)
      (.ok (par, Machine.jobReport true (coefOf orbs1 row1) (c2 row2) basis.sum (energies esP).length basis.sum C s esP)) := by
  obtain ⟨q, par, hq, hpar, req, e1, e2, hfile⟩ := params_of D hi hf a1 a2 (signOk_of r1) (signOk_of r2)
  have f1 : par.punP = file (lit "--pun_P") := hfile (lit "--pun_P", lit "--log_P", [lit ".orb", lit ".7", lit ".pun"]) (by decide)
  have f2 : par.pun1 = file (lit "--pun_1") := hfile (lit "--pun_1", lit "--log_1", [lit ".orb", lit ".7", lit ".pun"]) (by decide)
  have f3 : par.pun2 = file (lit "--pun_2") := hfile (lit "--pun_2", lit "--log_2", [lit ".orb", lit ".7", lit ".pun"]) (by decide)
  have f4 : par.logP = file (lit "--log_P") := hfile (lit "--log_P", lit "--pun_P", [lit ".log"]) (by decide)
  have f5 : par.log1 = file (lit "--log_1") := hfile (lit "--log_1", lit "--pun_1", [lit ".log"]) (by decide)
  have f6 : par.log2 = file (lit "--log_2") := hfile (lit "--log_2", lit "--pun_2", [lit ".log"]) (by decide)
  rw [← f2, ← f5] at m1
  rw [← f3, ← f6] at m2
  rw [← f1, ← f4] at d
  rw [← req.type1, ← e1] at r1
  rw [← req.type2, ← e2] at r2
  exact ⟨par, C99_files_cp tos files args hq hpar (req.counterPoise.trans cp) (req.spinP.trans sP) (req.spin1.trans s1) (req.spin2.trans s2)
    m1 m2 d hb hl ne r1 r2 hr1 hr2⟩

theorem ask_congr {as as' : List Asg} (same : ∀ f, given f as' = given f as) :
    (∀ f, askedSpin as' f = askedSpin as f) ∧ (∀ f, askedType as' f = askedType as f) ∧ (∀ f n, AskedNum as' f n ↔ AskedNum as f n) :=
  ⟨fun f => by unfold askedSpin; rw [same], fun f => by unfold askedType; rw [same], fun f n => by unfold AskedNum; rw [same]⟩

theorem uses_congr {fs : FS} {as as' : List Asg} (same : ∀ f, given f as' = given f as) {f g : Str} {exts : List Str} {y : Str}
    (h : UsesFile fs as f g exts y) : UsesFile fs as' f g exts y := by
  cases h with
  | explicit h he => exact .explicit (by rw [same]; exact h) he
  | sister hn h hp hm he => exact .sister (by rw [same]; exact hn) (by rw [same]; exact h) hp hm he

theorem requests_unique {as as' : List Asg} (same : ∀ f, given f as' = given f as) (sw : ∀ f, turnedOn f as' = turnedOn f as) {par par' : Params.Params}
    (h : Requests as par) (h' : Requests as' par') (hf : ∀ x ∈ inputFiles, fileOf par' x.1 = fileOf par x.1) : par' = par := by
  obtain ⟨c1, c2, c3⟩ := ask_congr same
  have f1 : par'.punP = par.punP := hf (lit "--pun_P", lit "--log_P", [lit ".orb", lit ".7", lit ".pun"]) (by decide)
  have f2 : par'.pun1 = par.pun1 := hf (lit "--pun_1", lit "--log_1", [lit ".orb", lit ".7", lit ".pun"]) (by decide)
  have f3 : par'.pun2 = par.pun2 := hf (lit "--pun_2", lit "--log_2", [lit ".orb", lit ".7", lit ".pun"]) (by decide)
  have f4 : par'.logP = par.logP := hf (lit "--log_P", lit "--pun_P", [lit ".log"]) (by decide)
  have f5 : par'.log1 = par.log1 := hf (lit "--log_1", lit "--pun_1", [lit ".log"]) (by decide)
  have f6 : par'.log2 = par.log2 := hf (lit "--log_2", lit "--pun_2", [lit ".log"]) (by decide)
  have g1 : par'.spinP = par.spinP := by rw [h'.spinP, h.spinP, c1]
  have g2 : par'.spin1 = par.spin1 := by rw [h'.spin1, h.spin1, c1]
  have g3 : par'.spin2 = par.spin2 := by rw [h'.spin2, h.spin2, c1]
  have g4 : par'.orbType1 = par.orbType1 := by rw [h'.type1, h.type1, c2]
  have g5 : par'.orbType2 = par.orbType2 := by rw [h'.type2, h.type2, c2]
  have g6 : par'.orbNum1 = par.orbNum1 := ((c3 _ _).1 h'.num1).unique h.num1
  have g7 : par'.orbNum2 = par.orbNum2 := ((c3 _ _).1 h'.num2).unique h.num2
  have g8 : par'.citation = par.citation := by rw [h'.citation, h.citation, sw]
  have g9 : par'.counterPoise = par.counterPoise := by rw [h'.counterPoise, h.counterPoise, sw]
  have g10 : par'.orbTypeP = par.orbTypeP := by rw [h'.typeP, h.typeP]
  have g11 : par'.orbNumP = par.orbNumP := by rw [h'.numP, h.numP]
  cases par; cases par'
  simp only at f1 f2 f3 f4 f5 f6 g1 g2 g3 g4 g5 g6 g7 g8 g9 g10 g11
  subst f1 f2 f3 f4 f5 f6 g1 g2 g3 g4 g5 g6 g7 g8 g9 g10 g11
  rfl

/-- C104: it does not matter in which order the flags stand on the command line, nor whether they are written in full: two intelligible
command lines that give the same values to each flag lead to the same outcome, or both are refused. -/
theorem C104_order (tos : α → β) (files : Str → Option Str) {args args' : List Str} {as as' : List Asg} (hi : Intelligible args as)
    (hi' : Intelligible args' as') (same : ∀ f, given f as' = given f as) (sw : ∀ f, turnedOn f as' = turnedOn f as) (fuel : Nat) :
    calcJRun D tos files fuel args' = calcJRun D tos files fuel args ∨
    (∃ e, calcJRun D tos files fuel args' = .throw e) ∧ ∃ e, calcJRun D tos files fuel args = .throw e := by
  have fit : ∀ {args : List Str}, (∀ v ∈ args, v.length + 4 < 2 ^ 63) → ∀ v ∈ args, Fits v := fun h v hv => by unfold Fits; have := h v hv; omega
  obtain ⟨q, hq⟩ := (C59_accepted (D := D) (fsOf files) args (fit hi.fits)).1.2 ⟨as, hi.reads, hi.said, hi.ok⟩
  obtain ⟨q', hq'⟩ := (C59_accepted (D := D) (fsOf files) args' (fit hi'.fits)).1.2 ⟨as', hi'.reads, hi'.said, hi'.ok⟩
  obtain ⟨h1, h2, -⟩ := C64_files_partial (fsOf files) args hi.fits q as hq hi.reads hi.once hi.plain
  obtain ⟨h1', h2', -⟩ := C64_files_partial (fsOf files) args' hi'.fits q' as' hq' hi'.reads hi'.once hi'.plain
  have run : ∀ {args : List Str} {q : Parser D}, Args.parse (fsOf files) Args.calcJ args = .ok q →
      calcJRun D tos files fuel args = (do
        let par ← Args.prepareParameters q
        let ((prP, pr1, pr2), (lrP, lr1, lr2)) ← readFiles files fuel par
        let r ← couplingReport tos par prP pr1 pr2 lrP lr1 lr2
        .ok (par, r)) := by
    intro args q h
    unfold calcJRun
    rw [prepareParser_ok, Res.ok_bind, h, Res.ok_bind]
  rw [run hq, run hq']
  by_cases hp : ∃ par, Args.prepareParameters q = .ok par
  · have hp' : ∃ par, Args.prepareParameters q' = .ok par := by
      rw [h2']
      obtain ⟨a, ⟨n1, b1, b2⟩, ⟨n2, c1, c2⟩⟩ := h2.1 hp
      obtain ⟨-, t2, t3⟩ := ask_congr same
      exact ⟨fun x hx => (a x hx).imp fun y hy => ⟨uses_congr same hy.1, hy.2⟩, ⟨n1, (t3 _ _).2 b1, by rw [t2]; exact b2⟩,
        ⟨n2, (t3 _ _).2 c1, by rw [t2]; exact c2⟩⟩
    obtain ⟨par, e⟩ := hp
    obtain ⟨par', e'⟩ := hp'
    obtain ⟨u, v, -, -⟩ := h1 par e
    obtain ⟨u', v', -, -⟩ := h1' par' e'
    have : par' = par := requests_unique same sw v v' (fun x hx =>
      UsesFile.unique hx hi'.once (u' x hx).1 (u' x hx).2 (uses_congr same (u x hx).1) (u x hx).2)
    left
    rw [e, e', this]
  · right
    have hp' : ¬ ∃ par, Args.prepareParameters q' = .ok par := by
      intro hp'
      apply hp
      rw [h2]
      obtain ⟨a, ⟨n1, b1, b2⟩, ⟨n2, c1, c2⟩⟩ := h2'.1 hp'
      obtain ⟨-, t2, t3⟩ := ask_congr same
      exact ⟨fun x hx => (a x hx).imp fun y hy => ⟨uses_congr (fun f => (same f).symm) hy.1, hy.2⟩, ⟨n1, (t3 _ _).1 b1, by rw [← t2]; exact b2⟩,
        ⟨n2, (t3 _ _).1 c1, by rw [← t2]; exact c2⟩⟩
    obtain ⟨e, he⟩ := (prepare_total (fsOf files) args hi.fits q as hq hi.reads hi.plain).resolve_left hp
    obtain ⟨e', he'⟩ := (prepare_total (fsOf files) args' hi'.fits q' as' hq' hi'.reads hi'.plain).resolve_left hp'
    rw [he, he']
    exact ⟨⟨e', rfl⟩, ⟨e, rfl⟩⟩

theorem given_perm {as as' : List Asg} (h : as'.Perm as) (f : Str) : (given f as').Perm (given f as) := by
  induction h with
  | nil => exact .refl _
  | cons a _ ih =>
    cases a with
    | value g k v => simp only [given]; split <;> [exact ih.cons _; exact ih]
    | switch g => exact ih
  | swap a b l =>
    cases a <;> cases b <;> simp only [given] <;> first | exact .refl _ | (split <;> split <;> first | exact .swap _ _ _ | exact .refl _)
  | trans _ _ ih ih' => exact ih.trans ih'

theorem turnedOn_iff {as : List Asg} {f : Str} : turnedOn f as = true ↔ .switch f ∈ as := by
  induction as with
  | nil => simp [turnedOn]
  | cons a as ih =>
    cases a with
    | value g k v => simp [turnedOn, ih]
    | switch g =>
      simp only [turnedOn, Bool.or_eq_true, decide_eq_true_eq, ih, List.mem_cons, Asg.switch.injEq]
      constructor
      · rintro (rfl | h)
        · exact .inl rfl
        · exact .inr h
      · rintro (rfl | h)
        · exact .inl rfl
        · exact .inr h

/-- C104 (rearranged command lines): the same flags with the same values in any order, each flag once. -/
theorem C104_rearranged (tos : α → β) (files : Str → Option Str) {args args' : List Str} {as as' : List Asg} (hi : Intelligible args as)
    (hi' : Intelligible args' as') (perm : as'.Perm as) (once : ∀ f, (given f as).length ≤ 1) (fuel : Nat) :
    calcJRun D tos files fuel args' = calcJRun D tos files fuel args ∨
    (∃ e, calcJRun D tos files fuel args' = .throw e) ∧ ∃ e, calcJRun D tos files fuel args = .throw e := by
  refine C104_order D tos files hi hi' ?_ ?_ fuel
  · intro f
    have p := given_perm perm f
    have h := once f
    match e : given f as, h with
    | [], _ => rw [e] at p; exact List.Perm.eq_nil p
    | [x], _ => rw [e] at p; exact List.perm_singleton.1 p
  · intro f
    have : turnedOn f as' = true ↔ turnedOn f as = true := by rw [turnedOn_iff, turnedOn_iff]; exact perm.mem_iff
    cases h : turnedOn f as <;> cases h' : turnedOn f as' <;> simp_all

end
end Verif
