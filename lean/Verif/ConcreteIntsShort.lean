import Verif.ConcreteIntsRead
import Verif.Props.IntsShortLog
/-
The hypothesis of C133_short_run met: all sample files are short.
-/
namespace Verif
open Strings Readers QC Mat Log Pun Job Ints Sample

namespace Sample

def Short (o : Option Str) : Prop := ∀ t, o = some t → t.length ≤ 23170

theorem short_ite {c : Prop} [Decidable c] {u : Str} {o : Option Str} (h : decide (u.length ≤ 23170) = true) (ho : Short o) :
    Short (if c then some u else o) := by
  intro t ht
  by_cases hc : c
  · rw [if_pos hc] at ht
    exact Option.some.inj ht ▸ of_decide_eq_true h
  · rw [if_neg hc] at ht
    exact ho t ht

theorem all_short (name t : Str) (h : filesS name = some t) : t.length ≤ 23170 := by
  have key : Short (filesS name) := by
    unfold filesS files
    repeat refine short_ite (by decide +kernel) ?_
    exact fun _ h => by cases h
  exact key t h

end Sample

/-- With these files no command line whatsoever makes an `int` overflow. -/
example (D : Type) [Args.Dbl D] (args : List Str) (hargs : ∀ v ∈ args, v.length + 4 < 2 ^ 63) (out : Res (Params.Params × Report Rat))
    (h : Ends (fun n => Verif.calcJRun D (id : Rat → Rat) filesS n args) out) : Ends (fun n => Ints.wholeRun D (id : Rat → Rat) filesS n args) out :=
  C133_short_run (id : Rat → Rat) filesS all_short args hargs h

end Verif
