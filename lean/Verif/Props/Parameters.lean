import Verif.Parameters
import Verif.Props.Strings
/-
Property C48: Parameters.
-/
namespace Verif.Params
open Strings

/-- What the getters of parameters.hpp:52-71 return. -/
inductive Getter
  | log1 | log2 | logP | pun1 | pun2 | punP | spinP | spin1 | spin2 | orbTypeP | orbType1 | orbType2
  | orbNumP | orbNum1 | orbNum2 | counterPoise | citation
deriving DecidableEq

inductive Val
  | str (s : Str) | int (n : Int) | bool (b : Bool)
deriving DecidableEq

/-- The value the getter returns (`ub` for a `citation` never set). -/
def get (p : Params) : Getter → Res Val
  | .log1 => .ok (.str p.log1) | .log2 => .ok (.str p.log2) | .logP => .ok (.str p.logP)
  | .pun1 => .ok (.str p.pun1) | .pun2 => .ok (.str p.pun2) | .punP => .ok (.str p.punP)
  | .spinP => .ok (.str p.spinP) | .spin1 => .ok (.str p.spin1) | .spin2 => .ok (.str p.spin2)
  | .orbTypeP => .ok (.str p.orbTypeP) | .orbType1 => .ok (.str p.orbType1) | .orbType2 => .ok (.str p.orbType2)
  | .orbNumP => .ok (.int p.orbNumP) | .orbNum1 => .ok (.int p.orbNum1) | .orbNum2 => .ok (.int p.orbNum2)
  | .counterPoise => .ok (.bool p.counterPoise)
  | .citation => do let b ← getCitation p; .ok (.bool b)

/-- Which getter a setter call is about, and with which value. -/
def target : Op → Getter × Val
  | .log1 s => (.log1, .str s) | .log2 s => (.log2, .str s) | .logP s => (.logP, .str s)
  | .pun1 s => (.pun1, .str s) | .pun2 s => (.pun2, .str s) | .punP s => (.punP, .str s)
  | .spinP s => (.spinP, .str s) | .spin1 s => (.spin1, .str s) | .spin2 s => (.spin2, .str s)
  | .orbTypeP s => (.orbTypeP, .str s) | .orbType1 s => (.orbType1, .str s) | .orbType2 s => (.orbType2, .str s)
  | .orbNumP n => (.orbNumP, .int n) | .orbNum1 n => (.orbNum1, .int n) | .orbNum2 n => (.orbNum2, .int n)
  | .counterPoise b => (.counterPoise, .bool b) | .citation b => (.citation, .bool b)

/-- The extension a getter's value must carry, if any. -/
def required : Getter → Option Str
  | .log1 | .log2 | .logP => some (lit ".log")
  | .pun1 | .pun2 | .punP => some (lit ".pun")
  | _ => none

/-- The value is acceptable for the getter: no extension is required, or the string ends in it. -/
def Acceptable (g : Getter) (v : Val) : Prop := ∀ ext, required g = some ext → ∃ x, v = .str (x ++ ext)

theorem checkExt_iff {s ext : Str} (hs : Fits s) (he : ext.length = 4) :
    (checkExt s ext = .ok () ↔ ∃ x, s = x ++ ext) ∧ ((¬ ∃ x, s = x ++ ext) → ∃ e, checkExt s ext = .throw e) := by
  unfold checkExt
  by_cases hl : s.length < 4
  · rw [(C44_out_of_range s hs 4 (by omega) (by omega)).1]
    refine ⟨⟨fun h => (by cases h), ?_⟩, fun _ => ⟨_, rfl⟩⟩
    rintro ⟨x, rfl⟩; simp at hl; omega
  · obtain ⟨a, b, -, -, e1, -, -, -, l1, e2, -, -⟩ := C44_in_range s hs 4 (by omega) (by omega)
    rw [e1]; simp only [Res.ok_bind]
    by_cases h : a = ext
    · rw [if_neg (by simpa using h)]
      refine ⟨⟨fun _ => ⟨b, by rw [← h, e2]⟩, fun _ => rfl⟩, fun hn => absurd ⟨b, by rw [← h, e2]⟩ hn⟩
    · rw [if_pos h]
      refine ⟨⟨fun h => (by cases h), ?_⟩, fun _ => ⟨_, rfl⟩⟩
      rintro ⟨x, hx⟩
      exfalso; apply h
      have := List.append_inj' (e2.trans hx) (by rw [he]; omega)
      exact this.2

/-- Every string passed is one that exists. -/
def OpFits (op : Op) : Prop := ∀ s, (target op).2 = .str s → Fits s

private theorem file_case {s ext : Str} (hs : Fits s) (he : ext.length = 4) {p' : Params} :
    ((∃ x, s = x ++ ext) → (do checkExt s ext; Res.ok p' : Res Params) = .ok p') ∧
    ((¬ ∃ x, s = x ++ ext) → ∃ e, (do checkExt s ext; Res.ok p' : Res Params) = .throw e) := by
  obtain ⟨h1, h2⟩ := checkExt_iff hs he
  constructor
  · intro h; rw [h1.2 h]; rfl
  · intro h; obtain ⟨e, h⟩ := h2 h; exact ⟨e, by rw [h]; rfl⟩

/-- C48 (one setter call): an acceptable value is stored and is what the getter returns, nothing else changes;
anything else throws and changes nothing. -/
theorem C48_setter (p : Params) (op : Op) (hfit : OpFits op) :
    (Acceptable (target op).1 (target op).2 →
      ∃ p', call p op = .ok p' ∧ step p op = (p', true) ∧ get p' (target op).1 = .ok (target op).2 ∧
        ∀ g, g ≠ (target op).1 → get p' g = get p g) ∧
    (¬ Acceptable (target op).1 (target op).2 → (∃ e, call p op = .throw e) ∧ step p op = (p, false)) := by
  have hfile : ∀ (s ext : Str) (p' : Params), call p op = (do checkExt s ext; Res.ok p') → Fits s → ext.length = 4 →
      (Acceptable (target op).1 (target op).2 ↔ ∃ x, s = x ++ ext) →
      get p' (target op).1 = .ok (target op).2 → (∀ g, g ≠ (target op).1 → get p' g = get p g) →
      ((Acceptable (target op).1 (target op).2 →
      ∃ p', call p op = .ok p' ∧ step p op = (p', true) ∧ get p' (target op).1 = .ok (target op).2 ∧
        ∀ g, g ≠ (target op).1 → get p' g = get p g) ∧
      (¬ Acceptable (target op).1 (target op).2 → (∃ e, call p op = .throw e) ∧ step p op = (p, false))) := by
    intro s ext p' hc hs he hacc hg hframe
    obtain ⟨h1, h2⟩ := file_case (p' := p') hs he
    constructor
    · intro ha
      have e := hc.trans (h1 (hacc.1 ha))
      exact ⟨p', e, by unfold step; rw [e], hg, hframe⟩
    · intro ha
      obtain ⟨e, h⟩ := h2 (fun h => ha (hacc.2 h))
      have e' := hc.trans h
      exact ⟨⟨e, e'⟩, by unfold step; rw [e']⟩
  have hplain : ∀ p', call p op = .ok p' → required (target op).1 = none → get p' (target op).1 = .ok (target op).2 →
      (∀ g, g ≠ (target op).1 → get p' g = get p g) →
      ((Acceptable (target op).1 (target op).2 →
      ∃ p', call p op = .ok p' ∧ step p op = (p', true) ∧ get p' (target op).1 = .ok (target op).2 ∧
        ∀ g, g ≠ (target op).1 → get p' g = get p g) ∧
      (¬ Acceptable (target op).1 (target op).2 → (∃ e, call p op = .throw e) ∧ step p op = (p, false))) := by
    intro p' e hr hg hframe
    refine ⟨fun _ => ⟨p', e, by unfold step; rw [e], hg, hframe⟩, fun ha => ?_⟩
    exfalso; apply ha; intro ext h; rw [hr] at h; cases h
  have hacc : ∀ (g : Getter) (s ext : Str), required g = some ext → (Acceptable g (.str s) ↔ ∃ x, s = x ++ ext) := by
    intro g s ext hr
    constructor
    · intro h
      obtain ⟨x, hx⟩ := h ext hr
      exact ⟨x, by simpa using hx⟩
    · rintro ⟨x, rfl⟩ e he
      rw [hr] at he
      exact ⟨x, by simp at he; rw [he]⟩
  cases op with
  | log1 s => exact hfile s (lit ".log") { p with log1 := s } rfl (hfit s rfl) rfl (hacc _ _ _ rfl) rfl (by intro g hg; cases g <;> first | rfl | exact absurd rfl hg)
  | log2 s => exact hfile s (lit ".log") { p with log2 := s } rfl (hfit s rfl) rfl (hacc _ _ _ rfl) rfl (by intro g hg; cases g <;> first | rfl | exact absurd rfl hg)
  | logP s => exact hfile s (lit ".log") { p with logP := s } rfl (hfit s rfl) rfl (hacc _ _ _ rfl) rfl (by intro g hg; cases g <;> first | rfl | exact absurd rfl hg)
  | pun1 s => exact hfile s (lit ".pun") { p with pun1 := s } rfl (hfit s rfl) rfl (hacc _ _ _ rfl) rfl (by intro g hg; cases g <;> first | rfl | exact absurd rfl hg)
  | pun2 s => exact hfile s (lit ".pun") { p with pun2 := s } rfl (hfit s rfl) rfl (hacc _ _ _ rfl) rfl (by intro g hg; cases g <;> first | rfl | exact absurd rfl hg)
  | punP s => exact hfile s (lit ".pun") { p with punP := s } rfl (hfit s rfl) rfl (hacc _ _ _ rfl) rfl (by intro g hg; cases g <;> first | rfl | exact absurd rfl hg)
  | spinP s => exact hplain { p with spinP := s } rfl rfl rfl (by intro g hg; cases g <;> first | rfl | exact absurd rfl hg)
  | spin1 s => exact hplain { p with spin1 := s } rfl rfl rfl (by intro g hg; cases g <;> first | rfl | exact absurd rfl hg)
  | spin2 s => exact hplain { p with spin2 := s } rfl rfl rfl (by intro g hg; cases g <;> first | rfl | exact absurd rfl hg)
  | orbTypeP s => exact hplain { p with orbTypeP := s } rfl rfl rfl (by intro g hg; cases g <;> first | rfl | exact absurd rfl hg)
  | orbType1 s => exact hplain { p with orbType1 := s } rfl rfl rfl (by intro g hg; cases g <;> first | rfl | exact absurd rfl hg)
  | orbType2 s => exact hplain { p with orbType2 := s } rfl rfl rfl (by intro g hg; cases g <;> first | rfl | exact absurd rfl hg)
  | orbNumP s => exact hplain { p with orbNumP := s } rfl rfl rfl (by intro g hg; cases g <;> first | rfl | exact absurd rfl hg)
  | orbNum1 s => exact hplain { p with orbNum1 := s } rfl rfl rfl (by intro g hg; cases g <;> first | rfl | exact absurd rfl hg)
  | orbNum2 s => exact hplain { p with orbNum2 := s } rfl rfl rfl (by intro g hg; cases g <;> first | rfl | exact absurd rfl hg)
  | counterPoise s => exact hplain { p with counterPoise := s } rfl rfl rfl (by intro g hg; cases g <;> first | rfl | exact absurd rfl hg)
  | citation s => exact hplain { p with citation := some s } rfl rfl rfl (by intro g hg; cases g <;> first | rfl | exact absurd rfl hg)

/-- C48 (histories): after any sequence of setter calls, failed ones included, each log file is empty or ends in `.log`
and each pun file is empty or ends in `.pun`. -/
theorem C48_invariant (ops : List Op) (hfit : ∀ op ∈ ops, OpFits op) (g : Getter) (ext : Str) (hg : required g = some ext) :
    ∃ s, get (ops.foldl (fun p op => (step p op).1) init) g = .ok (.str s) ∧ (s = [] ∨ ∃ x, s = x ++ ext) := by
  have key : ∀ (ops : List Op) (p : Params), (∀ op ∈ ops, OpFits op) →
      (∃ s, get p g = .ok (.str s) ∧ (s = [] ∨ ∃ x, s = x ++ ext)) →
      ∃ s, get (ops.foldl (fun p op => (step p op).1) p) g = .ok (.str s) ∧ (s = [] ∨ ∃ x, s = x ++ ext) := by
    intro ops
    induction ops with
    | nil => intro p _ h; exact h
    | cons op ops ih =>
      intro p hf h
      rw [List.foldl_cons]
      apply ih _ (fun o ho => hf o (by simp [ho]))
      obtain ⟨h1, h2⟩ := C48_setter p op (hf op (by simp))
      by_cases ha : Acceptable (target op).1 (target op).2
      · obtain ⟨p', -, e, e2, e3⟩ := h1 ha
        rw [e]
        by_cases hgt : g = (target op).1
        · subst hgt
          obtain ⟨x, hx⟩ := ha ext hg
          exact ⟨x ++ ext, by simp only; rw [e2, hx], Or.inr ⟨x, rfl⟩⟩
        · simp only; rw [e3 g hgt]; exact h
      · rw [(h2 ha).2]; exact h
  refine key ops init hfit ?_
  cases g <;> first | exact ⟨[], rfl, Or.inl rfl⟩ | cases hg

/-- The hypotheses are met by a real history: a good and a refused file. -/
example : (step (step init (.log1 (lit "mon.log"))).1 (.log1 (lit "mon.pun"))) =
    ({ init with log1 := (lit "mon.log") }, false) := by decide

/-- C48 (finding): `getCitation` before `setCitation` reads an indeterminate value. -/
theorem C48_citation_uninitialised : getCitation init = .ub := rfl

end Verif.Params
