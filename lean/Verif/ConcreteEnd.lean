import Verif.ConcreteBits
import Verif.Props.EndToEnd
/-
C103 and C104 on concrete command lines.
-/
namespace Verif
open Strings Readers QC Mat Log Pun Job Args Sample
namespace Sample

/-- A command line: the files of the dimer and the monomers, the companions are found next to them. -/
def asgA : List Asg := [.value (lit "--pun_P") .pun (lit "P.pun"), .value (lit "--pun_1") .pun (lit "1.pun"), .value (lit "--pun_2") .pun (lit "2.pun")]

/-- The same in another order, in part with full names. -/
def asgB : List Asg := [.value (lit "--pun_2") .pun (lit "2.pun"), .value (lit "--pun_P") .pun (lit "P.pun"), .value (lit "--pun_1") .pun (lit "1.pun")]

theorem parts (n : Str) (e : Str) (h : (n, e) ∈ [((lit "P"), (lit ".pun")), ((lit "1"), (lit ".pun")), ((lit "2"), (lit ".pun")), ((lit "F"), (lit ".pun"))]) :
    PathParts (n ++ e) [] n e := by
  simp only [List.mem_cons, List.not_mem_nil, or_false, Prod.mk.injEq] at h
  rcases h with ⟨rfl, rfl⟩ | ⟨rfl, rfl⟩ | ⟨rfl, rfl⟩ | ⟨rfl, rfl⟩
  all_goals exact ⟨rfl, .inl rfl, by decide, .inr ⟨(lit "pun"), rfl, by decide⟩⟩

theorem intelligibleA : Intelligible [(lit "-p_P"), (lit "P.pun"), (lit "-p_1"), (lit "1.pun"), (lit "-p_2"), (lit "2.pun")] asgA := by
  refine ⟨by decide, ?_, by simp [asgA], ?_, by decide, by decide⟩
  · exact .value (s := lit "-p_P") (by decide) (.inr rfl) (.value (s := lit "-p_1") (by decide) (.inr rfl) (.value (s := lit "-p_2") (by decide) (.inr rfl) .nil))
  · intro a ha
    simp only [asgA, List.mem_cons, List.not_mem_nil, or_false] at ha
    rcases ha with rfl | rfl | rfl
    · exact ⟨[], (lit "P"), (lit ".pun"), parts (lit "P") (lit ".pun") (by decide), by decide⟩
    · exact ⟨[], (lit "1"), (lit ".pun"), parts (lit "1") (lit ".pun") (by decide), by decide⟩
    · exact ⟨[], (lit "2"), (lit ".pun"), parts (lit "2") (lit ".pun") (by decide), by decide⟩

theorem intelligibleB : Intelligible [(lit "--pun_2"), (lit "2.pun"), (lit "-p_P"), (lit "P.pun"), (lit "--pun_1"), (lit "1.pun")] asgB := by
  refine ⟨by decide, ?_, by simp [asgB], ?_, by decide, by decide⟩
  · exact .value (s := lit "-p_2") (by decide) (.inl rfl) (.value (s := lit "-p_P") (by decide) (.inr rfl) (.value (s := lit "-p_1") (by decide) (.inl rfl) .nil))
  · intro a ha
    simp only [asgB, List.mem_cons, List.not_mem_nil, or_false] at ha
    rcases ha with rfl | rfl | rfl
    · exact ⟨[], (lit "2"), (lit ".pun"), parts (lit "2") (lit ".pun") (by decide), by decide⟩
    · exact ⟨[], (lit "P"), (lit ".pun"), parts (lit "P") (lit ".pun") (by decide), by decide⟩
    · exact ⟨[], (lit "1"), (lit ".pun"), parts (lit "1") (lit ".pun") (by decide), by decide⟩

/-- The six files it means. -/
def fileA (f : Str) : Str :=
  if f = (lit "--pun_P") then (lit "P.pun") else if f = (lit "--pun_1") then (lit "1.pun") else if f = (lit "--pun_2") then (lit "2.pun")
  else if f = (lit "--log_P") then (lit "P.log") else if f = (lit "--log_1") then (lit "1.log") else (lit "2.log")

theorem meantA : FilesMeant filesS asgA fileA := by
  intro x hx
  simp only [inputFiles, List.mem_cons, List.not_mem_nil, or_false] at hx
  rcases hx with rfl | rfl | rfl | rfl | rfl | rfl
  · exact ⟨.explicit (by decide) rfl, ⟨(lit "P"), by decide⟩⟩
  · exact ⟨.explicit (by decide) rfl, ⟨(lit "1"), by decide⟩⟩
  · exact ⟨.explicit (by decide) rfl, ⟨(lit "2"), by decide⟩⟩
  · exact ⟨.sister (w := lit "P.pun") (dir := []) (core := lit "P") (e := lit ".log") (by decide) (by decide) (parts (lit "P") (lit ".pun") (by decide)) (by decide) rfl,
      ⟨(lit "P"), by decide⟩⟩
  · exact ⟨.sister (w := lit "1.pun") (dir := []) (core := lit "1") (e := lit ".log") (by decide) (by decide) (parts (lit "1") (lit ".pun") (by decide)) (by decide) rfl,
      ⟨(lit "1"), by decide⟩⟩
  · exact ⟨.sister (w := lit "2.pun") (dir := []) (core := lit "2") (e := lit ".log") (by decide) (by decide) (parts (lit "2") (lit ".pun") (by decide)) (by decide) rfl,
      ⟨(lit "2"), by decide⟩⟩

/-- With counterpoise. -/
def asgC : List Asg := [.switch (lit "--counter_poise"), .value (lit "--pun_P") .pun (lit "P.pun"), .value (lit "--pun_1") .pun (lit "F.pun"),
  .value (lit "--pun_2") .pun (lit "P.pun")]

theorem intelligibleC : Intelligible [(lit "-cp"), (lit "-p_P"), (lit "P.pun"), (lit "-p_1"), (lit "F.pun"), (lit "-p_2"), (lit "P.pun")] asgC := by
  refine ⟨by decide, ?_, by simp [asgC], ?_, by decide, by decide⟩
  · exact .switch (by decide) (by rintro u us ⟨⟩; decide) (.value (s := lit "-p_P") (by decide) (.inr rfl)
      (.value (s := lit "-p_1") (by decide) (.inr rfl) (.value (s := lit "-p_2") (by decide) (.inr rfl) .nil)))
  · intro a ha
    simp only [asgC, List.mem_cons, List.not_mem_nil, or_false] at ha
    rcases ha with rfl | rfl | rfl | rfl
    · trivial
    · exact ⟨[], (lit "P"), (lit ".pun"), parts (lit "P") (lit ".pun") (by decide), by decide⟩
    · exact ⟨[], (lit "F"), (lit ".pun"), parts (lit "F") (lit ".pun") (by decide), by decide⟩
    · exact ⟨[], (lit "P"), (lit ".pun"), parts (lit "P") (lit ".pun") (by decide), by decide⟩

/-- The six files it means. -/
def fileC (f : Str) : Str :=
  if f = (lit "--pun_P") then (lit "P.pun") else if f = (lit "--pun_1") then (lit "F.pun") else if f = (lit "--pun_2") then (lit "P.pun")
  else if f = (lit "--log_P") then (lit "P.log") else if f = (lit "--log_1") then (lit "F.log") else (lit "P.log")

theorem meantC : FilesMeant filesS asgC fileC := by
  intro x hx
  simp only [inputFiles, List.mem_cons, List.not_mem_nil, or_false] at hx
  rcases hx with rfl | rfl | rfl | rfl | rfl | rfl
  · exact ⟨.explicit (by decide) rfl, ⟨(lit "P"), by decide⟩⟩
  · exact ⟨.explicit (by decide) rfl, ⟨(lit "F"), by decide⟩⟩
  · exact ⟨.explicit (by decide) rfl, ⟨(lit "P"), by decide⟩⟩
  · exact ⟨.sister (w := lit "P.pun") (dir := []) (core := lit "P") (e := lit ".log") (by decide) (by decide)
      (parts (lit "P") (lit ".pun") (by decide)) (by decide) rfl, ⟨(lit "P"), by decide⟩⟩
  · exact ⟨.sister (w := lit "F.pun") (dir := []) (core := lit "F") (e := lit ".log") (by decide) (by decide)
      (parts (lit "F") (lit ".pun") (by decide)) (by decide) rfl, ⟨(lit "F"), by decide⟩⟩
  · exact ⟨.sister (w := lit "P.pun") (dir := []) (core := lit "P") (e := lit ".log") (by decide) (by decide)
      (parts (lit "P") (lit ".pun") (by decide)) (by decide) rfl, ⟨(lit "P"), by decide⟩⟩

end Sample

section
variable {D : Type} [Args.Dbl D]

/-- C103 on this command line. -/
example : ∃ par, Ends (fun fuel => calcJRun D (id : Rat → Rat) filesS fuel [(lit "-p_P"), (lit "P.pun"), (lit "-p_1"), (lit "1.pun"), (lit "-p_2"), (lit "2.pun")])
    (.ok (par, Machine.jobReport false (coefOf orbs1 1) (coefOf orbs2 1) ([2] : List Int).sum (energies energiesP).length ([2] ++ [2] : List Int).sum
      alignedC alignedS energiesP)) :=
  C103_numbers D (id : Rat → Rat) filesS intelligibleA meantA rfl (spinP := .alpha) (spin1 := .alpha) (spin2 := .alpha) rfl rfl rfl
    monomer1 monomer2 dimerP (by decide) (by decide) rfl rfl (by simp) (by simp) (n1 := 0) (n2 := 0) (row1 := 1) (row2 := 1) rfl rfl
    (.inl (by decide)) (.inl (by decide)) (by decide) (by decide)

/-- C103 with counterpoise. -/
example : ∃ par, Ends (fun fuel => calcJRun D (id : Rat → Rat) filesS fuel
      [(lit "-cp"), (lit "-p_P"), (lit "P.pun"), (lit "-p_1"), (lit "F.pun"), (lit "-p_2"), (lit "P.pun")])
    (.ok (par, Machine.jobReport true (coefOf orbsFull 2) (alignedC 2) ([2, 2] : List Int).sum (energies energiesP).length ([2, 2] : List Int).sum
      alignedC alignedS energiesP)) :=
  C103_numbers_cp D (id : Rat → Rat) filesS intelligibleC meantC rfl (spinP := .alpha) (spin1 := .alpha) (spin2 := .alpha) rfl rfl rfl
    monomerF (listed_of dimerP) dimerP (by decide) rfl (by simp) (n1 := 0) (n2 := 0) (row1 := 2) (row2 := 2) rfl rfl
    (.inl (by decide)) (.inl (by decide)) (by decide) (by decide)

/-- C104 on the rearranged one. -/
example (fuel : Nat) :
    calcJRun D (id : Rat → Rat) filesS fuel [(lit "--pun_2"), (lit "2.pun"), (lit "-p_P"), (lit "P.pun"), (lit "--pun_1"), (lit "1.pun")] =
      calcJRun D (id : Rat → Rat) filesS fuel [(lit "-p_P"), (lit "P.pun"), (lit "-p_1"), (lit "1.pun"), (lit "-p_2"), (lit "2.pun")] ∨
    (∃ e, calcJRun D (id : Rat → Rat) filesS fuel [(lit "--pun_2"), (lit "2.pun"), (lit "-p_P"), (lit "P.pun"), (lit "--pun_1"), (lit "1.pun")] = .throw e) ∧
    ∃ e, calcJRun D (id : Rat → Rat) filesS fuel [(lit "-p_P"), (lit "P.pun"), (lit "-p_1"), (lit "1.pun"), (lit "-p_2"), (lit "2.pun")] = .throw e := by
  refine C104_rearranged D (id : Rat → Rat) filesS intelligibleA intelligibleB ?_ ?_ fuel
  · unfold asgA asgB
    exact (List.Perm.swap _ _ _).trans (List.Perm.cons _ (List.Perm.swap _ _ _))
  · intro f
    simp only [asgA, given]
    split
    · subst_vars; decide
    · split
      · subst_vars; decide
      · split <;> simp

end
end Verif
