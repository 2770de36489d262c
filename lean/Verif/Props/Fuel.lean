import Verif.OutputLemmas
import Verif.Props.Main
import Verif.ConcreteNum
import Verif.Props.ReadersTerm
import Verif.SettleRead
/-
Properties C111: every run has exactly one outcome, and C112: it is reached soon or never. Nothing is said here about what the outcome is: the number of passes a loop
may take is only a device to speak of loops that need not end, and these theorems show that it has no influence.
-/
namespace Verif.Readers

/-- `y` is what becomes of `x` when more passes are allowed: the same, unless `x` ran out of passes. -/
def Le {β : Type} (x y : Res β) : Prop := x ≠ .diverge → y = x

theorem Le.refl {β : Type} (x : Res β) : Le x x := fun _ => rfl

theorem Le.bot {β : Type} (y : Res β) : Le .diverge y := fun h => absurd rfl h

theorem Le.bind {β γ : Type} {x y : Res β} {f g : β → Res γ} (h : Le x y) (hf : ∀ a, Le (f a) (g a)) : Le (x >>= f) (y >>= g) := by
  cases x with
  | diverge => exact Le.bot _
  | ok a => rw [h (by intro e; cases e)]; exact hf a
  | throw e => rw [h (by intro e; cases e)]; exact Le.refl _
  | exit n => rw [h (by intro e; cases e)]; exact Le.refl _
  | ub => rw [h (by intro e; cases e)]; exact Le.refl _

theorem Le.ite {β : Type} {p : Prop} [Decidable p] {x y x' y' : Res β} (h : Le x x') (h' : Le y y') :
    Le (if p then x else y) (if p then x' else y') := by
  split
  · exact h
  · exact h'

/-- A computation whose outcome does not depend on the number of passes it may take, once it has one. -/
def Mono {β : Type} (f : Nat → Res β) : Prop := ∀ n m, n ≤ m → Le (f n) (f m)

theorem Mono.bind {β γ : Type} {f : Nat → Res β} {g : Nat → β → Res γ} (h : Mono f) (hg : ∀ a, Mono (fun n => g n a)) :
    Mono (fun n => f n >>= g n) := fun n m l => Le.bind (h n m l) (fun a => hg a n m l)

theorem Mono.const {β : Type} (x : Res β) : Mono (fun _ => x) := fun _ _ _ => Le.refl _

/-- Such a computation ends with exactly one outcome or does not end. -/
theorem Mono.outcome {β : Type} {f : Nat → Res β} (h : Mono f) : ((∃ out, Ends f out) ∨ Hangs f) ∧ ¬ ((∃ out, Ends f out) ∧ Hangs f) := by
  constructor
  · by_cases hh : Hangs f
    · exact .inr hh
    · left
      have : ∃ n, f n ≠ .diverge := by
        apply Classical.byContradiction
        intro hn
        exact hh fun n => Classical.byContradiction fun e => hn ⟨n, e⟩
      obtain ⟨n, hn⟩ := this
      exact ⟨f n, hn, n, fun m l => h n m l hn⟩
  · rintro ⟨⟨out, ho, N, hN⟩, hh⟩
    exact ho ((hN N (Nat.le_refl _)).symm.trans (hh N))

section
variable {α : Type} [Mul α] [Num α]

theorem rowLoop_le (b : Bool) (count : Nat) : ∀ n m, n ≤ m → ∀ fid line (row : List α),
    Le (rowLoop b count n fid line row) (rowLoop b count m fid line row)
  | 0, _, _, _, _, _ => Le.bot _
  | n + 1, 0, h, _, _, _ => absurd h (by omega)
  | n + 1, m + 1, h, fid, line, row => by
    unfold rowLoop
    refine Le.ite (Le.refl _) (Le.ite (Le.refl _) (Le.bind (Le.refl _) fun coef => ?_))
    cases getline fid line
    exact rowLoop_le b count n m (by omega) _ _ _

theorem coefLoop_mono (t : Str) : ∀ n m, n ≤ m → ∀ b count fid (v : List (List α)),
    Le (coefLoop t n b count fid v) (coefLoop t m b count fid v)
  | 0, _, _, _, _, _, _ => Le.bot _
  | n + 1, 0, h, _, _, _, _ => absurd h (by omega)
  | n + 1, m + 1, h, b, count, fid, v => by
    unfold coefLoop
    cases getline fid []
    refine Le.bind (rowLoop_le _ _ n m (by omega) _ _ _) fun x => ?_
    obtain ⟨fid, line, row⟩ := x
    exact Le.ite (Le.refl _) (coefLoop_mono t n m (by omega) _ _ _ _)

theorem readCoef_mono (t : Str) (r : FR (PunData α)) : Mono (fun n => readCoef t n r) := by
  intro n m h
  unfold readCoef
  exact Le.bind (coefLoop_mono t n m h _ _ _ _) fun _ => Le.refl _

/-- Every section reader of the table is monotone. -/
def SectionsMono {σ : Type} (s : Sections σ) : Prop := ∀ x ∈ s.readers, ∀ r, Mono (fun n => x.2 n r)

theorem readLoop_mono {σ : Type} {s : Sections σ} (hs : SectionsMono s) : ∀ n m, n ≤ m → ∀ r line,
    Le (readLoop s n r line) (readLoop s m r line)
  | 0, _, _, _, _ => Le.bot _
  | n + 1, 0, h, _, _ => absurd h (by omega)
  | n + 1, m + 1, h, r, line => by
    unfold readLoop
    cases getline r.fid line with
    | mk line fid =>
      refine Le.ite (Le.refl _) ?_
      dsimp only
      have sec : ∀ tag r, Le (readSection s n tag r) (readSection s m tag r) := by
        intro tag r
        unfold readSection
        cases e : s.readers.get tag with
        | none => exact Le.refl _
        | some f =>
          have : ∃ x ∈ s.readers, x.2 = f := ⟨_, Map.get_mem e, rfl⟩
          obtain ⟨x, hx, rfl⟩ := this
          exact hs x hx r n m (by omega)
      have next : ∀ r : FR σ, Le (readLoop s n { r with fid := (tellg r.fid).2, pos := (tellg r.fid).1 } line)
          (readLoop s m { r with fid := (tellg r.fid).2, pos := (tellg r.fid).1 } line) :=
        fun r => readLoop_mono hs n m (by omega) _ _
      exact Le.ite (Le.bind (sec _ _) next) (next _)

theorem read_mono {σ : Type} {s : Sections σ} (hs : SectionsMono s) (fs : Str → Option Str) (name : Str) (d : σ) :
    Mono (fun n => read s fs name n d) := by
  intro n m h
  unfold read
  cases fs name with
  | none => exact Le.refl _
  | some t => exact Le.bind (readLoop_mono hs n m h _ _) fun _ => Le.refl _

theorem punSections_mono : SectionsMono (punSections : Sections (PunData α)) := by
  intro x hx r
  simp only [punSections, List.mem_cons, List.not_mem_nil, or_false] at hx
  rcases hx with rfl | rfl <;> exact readCoef_mono _ r

theorem readPun_mono (fs : Str → Option Str) (name : Str) : Mono (fun n => (readPun fs n name : Res (PunData α))) :=
  Mono.bind (Mono.const _) fun _ => read_mono punSections_mono fs name _

variable [Zero α]

theorem aoRows_mono (atom : Int) (e : Str) : ∀ n m, n ≤ m → ∀ (r : FR (LogData α)) line e2 t,
    Le (aoRows atom e n r line e2 t) (aoRows atom e m r line e2 t)
  | 0, _, _, _, _, _, _ => Le.bot _
  | n + 1, 0, h, _, _, _, _ => absurd h (by omega)
  | n + 1, m + 1, h, r, line, e2, t => by
    unfold aoRows
    refine Le.ite (Le.refl _) (Le.bind (Le.refl _) fun vals => ?_)
    exact Le.ite (Le.refl _) (aoRows_mono atom e n m (by omega) _ _ _ _)

theorem aoAtoms_mono : ∀ n m, n ≤ m → ∀ atom (r : FR (LogData α)) line, Le (aoAtoms n atom r line) (aoAtoms m atom r line)
  | 0, _, _, _, _, _ => Le.bot _
  | n + 1, 0, h, _, _, _ => absurd h (by omega)
  | n + 1, m + 1, h, atom, r, line => by
    unfold aoAtoms
    refine Le.bind (Le.refl _) fun vals => Le.bind (Le.refl _) fun c => Le.bind (Le.refl _) fun c' => ?_
    refine Le.bind (aoRows_mono _ _ n m (by omega) _ _ _ _) fun x => ?_
    obtain ⟨r, line, b⟩ := x
    exact Le.ite (Le.refl _) (aoAtoms_mono n m (by omega) _ _ _)

theorem overlapFirst_mono : ∀ n m, n ≤ m → ∀ fid line c k (rows : List (List α)),
    Le (overlapFirst n fid line c k rows) (overlapFirst m fid line c k rows)
  | 0, _, _, _, _, _, _, _ => Le.bot _
  | n + 1, 0, h, _, _, _, _, _ => absurd h (by omega)
  | n + 1, m + 1, h, fid, line, c, k, rows => by
    unfold overlapFirst
    refine Le.bind (Le.refl _) fun i => Le.ite (Le.refl _) (Le.bind (Le.refl _) fun row => ?_)
    exact overlapFirst_mono n m (by omega) _ _ _ _ _

theorem energiesLoop_mono (t : Str) : ∀ n m, n ≤ m → ∀ (r : FR (LogData α)) line, Le (energiesLoop t n r line) (energiesLoop t m r line)
  | 0, _, _, _, _ => Le.bot _
  | n + 1, 0, h, _, _ => absurd h (by omega)
  | n + 1, m + 1, h, r, line => by
    unfold energiesLoop
    refine Le.ite (Le.refl _) (Le.ite (Le.bind (Le.refl _) fun v => ?_) (Le.refl _))
    exact energiesLoop_mono t n m (by omega) _ _

theorem coordLoop_mono : ∀ n m, n ≤ m → ∀ fid line (X Y Z : List α), Le (coordLoop n fid line X Y Z) (coordLoop m fid line X Y Z)
  | 0, _, _, _, _, _, _, _ => Le.bot _
  | n + 1, 0, h, _, _, _, _, _ => absurd h (by omega)
  | n + 1, m + 1, h, fid, line, X, Y, Z => by
    unfold coordLoop
    refine Le.ite (Le.refl _) ?_
    refine Le.bind (Le.refl _) fun _ => Le.bind (Le.refl _) fun _ => Le.bind (Le.refl _) fun _ => Le.bind (Le.refl _) fun _ =>
      Le.bind (Le.refl _) fun _ => Le.bind (Le.refl _) fun _ => ?_
    exact coordLoop_mono n m (by omega) _ _ _ _ _

theorem logSections_mono : SectionsMono (logSections : Sections (LogData α)) := by
  intro x hx r n m h
  simp only [logSections, List.mem_cons, List.not_mem_nil, or_false] at hx
  rcases hx with rfl | rfl | rfl | rfl | rfl
  · exact aoAtoms_mono n m h _ _ _
  · exact Le.bind (coordLoop_mono n m h _ _ _ _ _) fun _ => Le.refl _
  · exact Le.bind (energiesLoop_mono _ n m h _ _) fun _ => Le.refl _
  · exact Le.bind (energiesLoop_mono _ n m h _ _) fun _ => Le.refl _
  · exact Le.bind (overlapFirst_mono n m h _ _ _ _ _) fun _ => Le.refl _

theorem readLog_mono (fs : Str → Option Str) (name : Str) : Mono (fun n => (readLog fs n name : Res (LogData α))) :=
  Mono.bind (Mono.const _) fun _ => read_mono logSections_mono fs name _

/-- C111 (readers): reading a log file - whatever its name and whatever it holds - ends with exactly one outcome, or does not
end; and never both. The same for pun files. -/
theorem C111_readers (fs : Str → Option Str) (name : Str) :
    (((∃ out, Ends (fun n => (readLog fs n name : Res (LogData α))) out) ∨ Hangs (fun n => (readLog fs n name : Res (LogData α)))) ∧
      ¬ ((∃ out, Ends (fun n => (readLog fs n name : Res (LogData α))) out) ∧ Hangs (fun n => (readLog fs n name : Res (LogData α))))) ∧
    (((∃ out, Ends (fun n => (readPun fs n name : Res (PunData α))) out) ∨ Hangs (fun n => (readPun fs n name : Res (PunData α)))) ∧
      ¬ ((∃ out, Ends (fun n => (readPun fs n name : Res (PunData α))) out) ∧ Hangs (fun n => (readPun fs n name : Res (PunData α))))) :=
  ⟨(readLog_mono fs name).outcome, (readPun_mono fs name).outcome⟩

theorem decided {β : Type} {B : Nat} {f : Nat → Res β} (hm : Mono f) (hs : Settled B f) : Decided B f := by
  by_cases h : f B = .diverge
  · right
    intro n
    apply Classical.byContradiction
    intro hn
    rcases Nat.le_total n B with l | l
    · exact hn ((hm n B l hn).symm.trans h)
    · exact hn ((hs n l).trans h)
  · exact .inl ⟨h, B, fun n l => hs n l⟩

omit [Zero α] in
theorem readPun_settled (fs : Str → Option Str) (name : Str) (len : Nat) (h : ∀ text, fs name = some text → text.length ≤ len) :
    Settled (3 * len + 6) (fun n => (readPun fs n name : Res (PunData α))) := by
  have e : 3 * len + 6 = (len + 1) + ((len + 1) + (len + 1) + 2) + 1 := by omega
  rw [e]
  exact Settled.bind (Settled.const _ _) fun _ _ => read_settled _ (pun_settle (len + 1)) fs name _ fun t ht => by have := h t ht; omega

theorem readLog_settled (fs : Str → Option Str) (name : Str) (len : Nat) (h : ∀ text, fs name = some text → text.length ≤ len) :
    Settled (2 * len + 6) (fun n => (readLog fs n name : Res (LogData α))) := by
  have e : 2 * len + 6 = (len + 1) + ((len + 1) + 3) + 1 := by omega
  rw [e]
  exact Settled.bind (Settled.const _ _) fun _ _ => read_settled _ (log_settle (len + 1)) fs name _ fun t ht => by have := h t ht; omega

omit [Zero α] in
/-- C112 (pun files): if reading a pun file of `len` characters has not ended when its loops have made `3 len + 6` passes, it
never ends. -/
theorem C112_pun (fs : Str → Option Str) (name : Str) (len : Nat) (h : ∀ text, fs name = some text → text.length ≤ len) :
    Decided (3 * len + 6) (fun n => (readPun fs n name : Res (PunData α))) :=
  decided (readPun_mono fs name) (readPun_settled fs name len h)

/-- C112 (log files): the same with `2 len + 6` passes. -/
theorem C112_log (fs : Str → Option Str) (name : Str) (len : Nat) (h : ∀ text, fs name = some text → text.length ≤ len) :
    Decided (2 * len + 6) (fun n => (readLog fs n name : Res (LogData α))) :=
  decided (readLog_mono fs name) (readLog_settled fs name len h)

end
end Verif.Readers

namespace Verif
open Readers QC

section
variable {α β : Type} [Zero α] [One α] [Add α] [Sub α] [Mul α] [Div α] [Num α] [DecidableEq β] {D : Type} [Args.Dbl D]

theorem readFiles_mono (files : Str → Option Str) (par : Params.Params) :
    Mono (fun n => (readFiles files n par : Res ((PunData α × PunData α × PunData α) × (LogData α × LogData α × LogData α)))) :=
  (readPun_mono _ _).bind fun _ => (readPun_mono _ _).bind fun _ => (readPun_mono _ _).bind fun _ => (readLog_mono _ _).bind fun _ =>
    (readLog_mono _ _).bind fun _ => (readLog_mono _ _).bind fun _ => Mono.const _

theorem calcJRun_mono (tos : α → β) (files : Str → Option Str) (args : List Str) : Mono (fun n => calcJRun D tos files n args) :=
  (Mono.const _).bind fun _ => (Mono.const _).bind fun _ => (Mono.const _).bind fun par => (readFiles_mono files par).bind fun _ => Mono.const _

end

section
variable {α β : Type} [Field α] [Num α] [DecidableEq β] {D : Type} [Args.Dbl D]

/-- C111: on every command line and every file system calc_J has exactly one outcome: it ends, with one output, error or exit
status, or it does not end. -/
theorem C111_outcome (tos : α → β) (print : α → Str) (about : About) (files : Str → Option Str) (args : List Str) :
    (∃ out, Ends (fun n => calcJOutput D tos print about files n args) out ∧
      (∀ out', Ends (fun n => calcJOutput D tos print about files n args) out' → out' = out) ∧
      ¬ Hangs (fun n => calcJOutput D tos print about files n args)) ∨
    (Hangs (fun n => calcJOutput D tos print about files n args) ∧
      ∀ out, ¬ Ends (fun n => calcJOutput D tos print about files n args) out) := by
  have hm : Mono (fun n => calcJOutput D tos print about files n args) := by
    simp only [calcJOutput_eq]
    exact (calcJRun_mono tos files args).bind fun _ => Mono.const _
  obtain ⟨h1, h2⟩ := hm.outcome
  rcases h1 with ⟨out, h⟩ | h
  · exact .inl ⟨out, h, fun out' h' => Ends.unique h' h, fun hh => h2 ⟨⟨out, h⟩, hh⟩⟩
  · exact .inr ⟨h, fun out ho => h2 ⟨⟨out, ho⟩, h⟩⟩

/-- C111 (one run): an output seen within some number of passes is the output with any larger number: a run that has been
seen to end, with whatever outcome, has this outcome. -/
theorem C111_seen (tos : α → β) (print : α → Str) (about : About) (files : Str → Option Str) (args : List Str) (n : Nat)
    (h : calcJOutput D tos print about files n args ≠ .diverge) :
    Ends (fun n => calcJOutput D tos print about files n args) (calcJOutput D tos print about files n args) := by
  have hm : Mono (fun n => calcJOutput D tos print about files n args) := by
    simp only [calcJOutput_eq]
    exact (calcJRun_mono tos files args).bind fun _ => Mono.const _
  exact ⟨h, n, fun m l => hm n m l h⟩

/-- C112: when the six files named on the command line have at most `len` characters, calc_J has ended when its loops have made
`3 len + 6` passes, or it never ends. -/
theorem C112_run (tos : α → β) (print : α → Str) (about : About) (files : Str → Option Str) (args : List Str) (len : Nat)
    (h : ∀ q par, Args.parse (D := D) (fsOf files) Args.calcJ args = .ok q → Args.prepareParameters q = .ok par →
      ∀ name ∈ [par.punP, par.pun1, par.pun2, par.logP, par.log1, par.log2], ∀ text, files name = some text → text.length ≤ len) :
    Decided (3 * len + 6) (fun n => calcJOutput D tos print about files n args) := by
  have hm : Mono (fun n => calcJOutput D tos print about files n args) := by
    simp only [calcJOutput_eq]
    exact (calcJRun_mono tos files args).bind fun _ => Mono.const _
  refine decided hm ?_
  simp only [calcJOutput_eq]
  refine Settled.bind ?_ fun _ _ => Settled.const _ _
  refine Settled.bind (Settled.const _ _) fun p hp => Settled.bind (Settled.const _ _) fun q hq => Settled.bind (Settled.const _ _) fun par hpar => ?_
  rw [Args.prepareParser_ok] at hp
  have hn := h q par (by rw [Res.ok.inj hp]; exact hq) hpar
  simp only [List.mem_cons, List.not_mem_nil, or_false, forall_eq_or_imp, forall_eq] at hn
  obtain ⟨h1, h2, h3, h4, h5, h6⟩ := hn
  have log : ∀ name, (∀ text, files name = some text → text.length ≤ len) →
      Settled (3 * len + 6) (fun n => (readLog files n name : Res (LogData α))) :=
    fun name h => (readLog_settled files name len h).mono (by omega)
  refine Settled.bind ?_ fun _ _ => Settled.const _ _
  exact Settled.bind (readPun_settled files _ len h1) fun _ _ => Settled.bind (readPun_settled files _ len h2) fun _ _ =>
    Settled.bind (readPun_settled files _ len h3) fun _ _ => Settled.bind (log _ h4) fun _ _ => Settled.bind (log _ h5) fun _ _ =>
    Settled.bind (log _ h6) fun _ _ => Settled.const _ _

end

/-- Both kinds of runs occur (see also the examples of C69): a pun file that ends, found out within the passes C112 allows,
and one that does not. -/
example : Ends (fun n => (readPun (holding (lit "a.pun") (lit "title\n")) n (lit "a.pun") : Res (PunData Int))) (.ok []) := by
  rcases C112_pun (α := Int) (holding (lit "a.pun") (lit "title\n")) (lit "a.pun") 6 (by
    intro text h; unfold holding at h; simp at h; subst h; decide) with h | h
  · have e : (readPun (holding (lit "a.pun") (lit "title\n")) (3 * 6 + 6) (lit "a.pun") : Res (PunData Int)) = .ok [] := by decide +kernel
    rw [← e]; exact h
  · exact absurd (h 24) (by decide +kernel)

end Verif
