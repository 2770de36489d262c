import Verif.Props.Reads
import Verif.ConcreteEnd
/-
C152: instances.
-/
namespace Verif.Run
open Strings Readers QC Mat Log Args Sample

section
variable {D : Type} [Args.Dbl D]

theorem asksA {name : Str} (h : AsksFor asgA name) : name ∈ [lit "P.pun", lit "1.pun", lit "2.pun", lit "P.log", lit "1.log", lit "2.log"] := by
  have sis : ∀ (w b : Str), (w, b) ∈ [(lit "P.pun", lit "P"), (lit "1.pun", lit "1"), (lit "2.pun", lit "2")] → ∀ dir core ext, PathParts w dir core ext →
      dir ++ core = b := by
    intro w b hw dir core ext hp
    simp only [List.mem_cons, List.not_mem_nil, or_false, Prod.mk.injEq] at hw
    rcases hw with ⟨rfl, rfl⟩ | ⟨rfl, rfl⟩ | ⟨rfl, rfl⟩
    · obtain ⟨rfl, rfl, -⟩ := hp.unique (parts (lit "P") (lit ".pun") (by decide)); rfl
    · obtain ⟨rfl, rfl, -⟩ := hp.unique (parts (lit "1") (lit ".pun") (by decide)); rfl
    · obtain ⟨rfl, rfl, -⟩ := hp.unique (parts (lit "2") (lit ".pun") (by decide)); rfl
  cases h with
  | @given x v hx hv =>
    simp only [inputFiles, List.mem_cons, List.not_mem_nil, or_false] at hx
    rcases hx with rfl | rfl | rfl | rfl | rfl | rfl <;> revert hv <;> revert name <;> decide
  | @next x w dir core ext e hx hw hp he =>
    simp only [inputFiles, List.mem_cons, List.not_mem_nil, or_false] at hx
    rcases hx with rfl | rfl | rfl | rfl | rfl | rfl
    · exact absurd (hw.symm.trans (by decide : _ = none)) (by simp)
    · exact absurd (hw.symm.trans (by decide : _ = none)) (by simp)
    · exact absurd (hw.symm.trans (by decide : _ = none)) (by simp)
    · have : w = lit "P.pun" := (Option.some.inj (hw.symm.trans (by decide)))
      subst this
      rw [sis _ (lit "P") (by decide) dir core ext hp, List.mem_singleton.1 he]; decide
    · have : w = lit "1.pun" := (Option.some.inj (hw.symm.trans (by decide)))
      subst this
      rw [sis _ (lit "1") (by decide) dir core ext hp, List.mem_singleton.1 he]; decide
    · have : w = lit "2.pun" := (Option.some.inj (hw.symm.trans (by decide)))
      subst this
      rw [sis _ (lit "2") (by decide) dir core ext hp, List.mem_singleton.1 he]; decide

/-- C152 on the sample job: whatever else lies in the directory. -/
example (others : Str → Option Str) (fuel : Nat) :
    (calcJRun D (id : Rat → Rat) filesS fuel [(lit "-p_P"), (lit "P.pun"), (lit "-p_1"), (lit "1.pun"), (lit "-p_2"), (lit "2.pun")] :
        Res (Params.Params × Report Rat)) =
      calcJRun D (id : Rat → Rat) (fun name => if name ∈ [lit "P.pun", lit "1.pun", lit "2.pun", lit "P.log", lit "1.log", lit "2.log"] then filesS name
        else others name) fuel [(lit "-p_P"), (lit "P.pun"), (lit "-p_1"), (lit "1.pun"), (lit "-p_2"), (lit "2.pun")] := by
  refine C152_listed (id : Rat → Rat) (by decide) (by decide) ?_ fuel
  intro as hr name hn
  rw [Reads.unique hr intelligibleA.reads] at hn
  exact (if_pos (asksA hn)).symm

/-- C152, a mistake: the run is refused in an empty directory just as in a full one. -/
example (fs : FS) : Args.parse fs (Args.calcJ (D := D)) [lit "-p_P"] = Args.parse (fun _ => false) (Args.calcJ (D := D)) [lit "-p_P"] := by
  refine (C152_mistake fs (fun _ => false) (by decide) ?_).2
  intro as hu
  cases hu.reads with
  | info h _ => exact absurd h (by decide)
  | switch h _ _ => revert h; simp [switchTokens]

end
end Verif.Run
