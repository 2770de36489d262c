import Verif.Props.Usage
import Verif.Props.CommandLine
/-
C87: the values the help text offers for a flag are accepted.
-/
namespace Verif.Args
open Strings
variable {D : Type} [Dbl D]

set_option maxRecDepth 4000 in
/-- C87 (partial): the values HOMO and LUMO that the help text offers for the orbital types are accepted after any accepted command line.
Missing: the values it offers for the spins (`C87_refuted_spin`). -/
theorem C87_orbital_types_partial (fs : FS) {f s v : Str} (hf : (f, s, Kind.otype) ∈ valueFlags) (hv : v = (lit "HOMO") ∨ v = (lit "LUMO"))
    {args : List Str} {as : List Asg} (hr : Reads args as) (hok : ∀ a ∈ as, a.Ok) (hfit : ∀ v ∈ args, Fits v) :
    (∃ d ∈ calcJFlags, d.take 2 = [f, s] ∧ ∃ text ∈ d, (lit "Your options are HOMO or LUMO.") <:+: text) ∧
    (∃ q, parse fs (calcJ (D := D)) (f :: v :: args) = .ok q) ∧ (∃ q, parse fs (calcJ (D := D)) (s :: v :: args) = .ok q) := by
  have key : ∀ x ∈ valueFlags, x.2.2 = Kind.otype →
      Fits x.1 ∧ Fits x.2.1 ∧ ∃ d ∈ calcJFlags, d.take 2 = [x.1, x.2.1] ∧ ∃ text ∈ d, (lit "Your options are HOMO or LUMO.") <:+: text := by
    unfold Fits; decide +kernel
  obtain ⟨h1, h2, h3⟩ := key _ hf rfl
  have hv' : Fits v := by rcases hv with rfl | rfl <;> (unfold Fits; decide)
  have acc : ∀ t, (t = f ∨ t = s) → ∃ q, parse fs (calcJ (D := D)) (t :: v :: args) = .ok q := by
    intro t ht
    refine (C59_accepted fs (t :: v :: args) ?_).1.2 ⟨_, .value hf ht hr, by simp, ?_⟩
    · intro w hw
      rcases List.mem_cons.1 hw with rfl | hw
      · rcases ht with rfl | rfl
        · exact h1
        · exact h2
      · rcases List.mem_cons.1 hw with rfl | hw
        · exact hv'
        · exact hfit w hw
    · intro a ha
      rcases List.mem_cons.1 ha with rfl | ha
      · exact hv
      · exact hok a ha
  exact ⟨h3, acc f (Or.inl rfl), acc s (Or.inr rfl)⟩

set_option maxRecDepth 4000 in
/-- C87 (refuted): the help text of every spin flag offers the values alpha and beta, but no command line that gives one of them to a
spin flag is accepted: only Alpha and Beta are. -/
theorem C87_refuted_spin (fs : FS) {f s v : Str} (hf : (f, s, Kind.spin) ∈ valueFlags) (hv : v = (lit "alpha") ∨ v = (lit "beta")) :
    (∃ d ∈ calcJFlags, d.take 2 = [f, s] ∧ ∃ text ∈ d, (lit "The options are alpha or beta.") <:+: text) ∧
    ∀ (args : List Str) (as : List Asg), (∀ w ∈ args, Fits w) → Reads args as → Asg.value f .spin v ∈ as →
      ∀ q, parse fs (calcJ (D := D)) args ≠ .ok q := by
  have key : ∀ x ∈ valueFlags, x.2.2 = Kind.spin →
      ∃ d ∈ calcJFlags, d.take 2 = [x.1, x.2.1] ∧ ∃ text ∈ d, (lit "The options are alpha or beta.") <:+: text := by
    decide +kernel
  refine ⟨key _ hf rfl, ?_⟩
  intro args as hfit hr hm q hq
  have := C63_valid fs args hfit q as hq hr f .spin v hm
  simp only at this
  rcases hv with rfl | rfl
  · revert this; decide
  · revert this; decide

example : Reads [lit "--spin_1", lit "alpha", lit "-cp"] [.value (lit "--spin_1") .spin (lit "alpha"), .switch (lit "--counter_poise")] :=
  .value (s := lit "-s_1") (by decide) (.inl rfl) (.switch (by decide) (by simp) .nil)
example : (lit "--orbital_type_1", lit "-orb_ty_1", Kind.otype) ∈ valueFlags ∧
    Reads [lit "-cp"] [.switch (lit "--counter_poise")] ∧ ∀ a ∈ [Asg.switch (lit "--counter_poise")], a.Ok :=
  ⟨by decide, .switch (by decide) (by simp) .nil, by simp [Asg.Ok]⟩

end Verif.Args
