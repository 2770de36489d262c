import Verif.Props.SameContents
import Verif.ConcreteLine
/-
C155 on concrete files: the same files in another directory.
-/
namespace Verif.SameContents
open Strings Readers QC Mat Log Pun Job Args Sample Run Params

/-- The files, in another directory and with other names. -/
def moved (name : Str) : Option Str :=
  if name = (lit "../run.1/both.pun") then filesS (lit "P.pun") else if name = (lit "../run.1/both.log") then filesS (lit "P.log")
  else if name = (lit "left.pun") then filesS (lit "1.pun") else if name = (lit "left.log") then filesS (lit "1.log")
  else if name = (lit "right.pun") then filesS (lit "2.pun") else if name = (lit "../r.log") then filesS (lit "2.log") else none

/-- A command line that names them all. -/
def argsS : List Str := [(lit "-p_P"), (lit "P.pun"), (lit "-l_P"), (lit "P.log"), (lit "-p_1"), (lit "1.pun"), (lit "-l_1"), (lit "1.log"), (lit "-p_2"), (lit "2.pun"), (lit "-l_2"), (lit "2.log")]

def asS : List Asg := [.value (lit "--pun_P") .pun (lit "P.pun"), .value (lit "--log_P") .log (lit "P.log"), .value (lit "--pun_1") .pun (lit "1.pun"),
  .value (lit "--log_1") .log (lit "1.log"), .value (lit "--pun_2") .pun (lit "2.pun"), .value (lit "--log_2") .log (lit "2.log")]

/-- One for the moved files: two of them are found, the spins and a type are written out. -/
def argsM : List Str := [(lit "-orb_ty_2"), (lit "HOMO"), (lit "-p_P"), (lit "../run.1/both.pun"), (lit "-p_1"), (lit "left.pun"), (lit "-l_1"), (lit "left.log"),
  (lit "-p_2"), (lit "right.pun"), (lit "-l_2"), (lit "../r.log"), (lit "-s_1"), (lit "Alpha")]

def asM : List Asg := [.value (lit "--orbital_type_2") .otype (lit "HOMO"), .value (lit "--pun_P") .pun (lit "../run.1/both.pun"), .value (lit "--pun_1") .pun (lit "left.pun"),
  .value (lit "--log_1") .log (lit "left.log"), .value (lit "--pun_2") .pun (lit "right.pun"), .value (lit "--log_2") .log (lit "../r.log"),
  .value (lit "--spin_1") .spin (lit "Alpha")]

theorem pun_ok {dir core : Str} (h1 : dir = [] ∨ ∃ d, dir = d ++ ['/']) (h2 : '/' ∉ core) : ValueOk .pun (dir ++ core ++ (lit ".pun")) := by
  refine ⟨dir, core, (lit ".pun"), ⟨rfl, h1, ?_, .inr ⟨(lit "pun"), rfl, by decide⟩⟩, by simp⟩
  rintro c hc rfl
  rcases List.mem_append.1 hc with h | h
  · exact h2 h
  · exact absurd h (by decide)

theorem log_ok {dir core : Str} (h1 : dir = [] ∨ ∃ d, dir = d ++ ['/']) (h2 : '/' ∉ core) : ValueOk .log (dir ++ core ++ (lit ".log")) := by
  refine ⟨dir, core, (lit ".log"), ⟨rfl, h1, ?_, .inr ⟨(lit "log"), rfl, by decide⟩⟩, rfl⟩
  rintro c hc rfl
  rcases List.mem_append.1 hc with h | h
  · exact h2 h
  · exact absurd h (by decide)

theorem understoodS : Understood argsS asS := by
  refine ⟨?_, by simp [asS], ?_⟩
  · exact .value (s := lit "-p_P") (by decide) (.inr rfl) (.value (s := lit "-l_P") (by decide) (.inr rfl) (.value (s := lit "-p_1") (by decide) (.inr rfl)
      (.value (s := lit "-l_1") (by decide) (.inr rfl) (.value (s := lit "-p_2") (by decide) (.inr rfl) (.value (s := lit "-l_2") (by decide) (.inr rfl) .nil)))))
  · intro a ha
    simp only [asS, List.mem_cons, List.not_mem_nil, or_false] at ha
    rcases ha with rfl | rfl | rfl | rfl | rfl | rfl
    · exact pun_ok (dir := []) (core := lit "P") (.inl rfl) (by decide)
    · exact log_ok (dir := []) (core := lit "P") (.inl rfl) (by decide)
    · exact pun_ok (dir := []) (core := lit "1") (.inl rfl) (by decide)
    · exact log_ok (dir := []) (core := lit "1") (.inl rfl) (by decide)
    · exact pun_ok (dir := []) (core := lit "2") (.inl rfl) (by decide)
    · exact log_ok (dir := []) (core := lit "2") (.inl rfl) (by decide)

theorem understoodM : Understood argsM asM := by
  refine ⟨?_, by simp [asM], ?_⟩
  · exact .value (s := lit "-orb_ty_2") (by decide) (.inr rfl) (.value (s := lit "-p_P") (by decide) (.inr rfl) (.value (s := lit "-p_1") (by decide) (.inr rfl)
      (.value (s := lit "-l_1") (by decide) (.inr rfl) (.value (s := lit "-p_2") (by decide) (.inr rfl) (.value (s := lit "-l_2") (by decide) (.inr rfl)
      (.value (s := lit "-s_1") (by decide) (.inr rfl) .nil))))))
  · intro a ha
    simp only [asM, List.mem_cons, List.not_mem_nil, or_false] at ha
    rcases ha with rfl | rfl | rfl | rfl | rfl | rfl | rfl
    · exact .inl rfl
    · exact pun_ok (dir := lit "../run.1/") (core := lit "both") (.inr ⟨lit "../run.1", rfl⟩) (by decide)
    · exact pun_ok (dir := []) (core := lit "left") (.inl rfl) (by decide)
    · exact log_ok (dir := []) (core := lit "left") (.inl rfl) (by decide)
    · exact pun_ok (dir := []) (core := lit "right") (.inl rfl) (by decide)
    · exact log_ok (dir := lit "../") (core := lit "r") (.inr ⟨lit "..", rfl⟩) (by decide)
    · exact .inl rfl

theorem explicit {exists_ : Str → Bool} {as : List Asg} {f g : Str} {exts : List Str} {v : Str} (h : given f as = [v]) (he : exists_ v = true) :
    Takes exists_ as f g exts (some v) :=
  ⟨fun _ => by rw [h]; rfl, fun hn => absurd (hn v (by rw [h]; simp)) (by rw [he]; simp)⟩

def takenS (f : Str) : Option Str :=
  if f = (lit "--pun_P") then some (lit "P.pun") else if f = (lit "--pun_1") then some (lit "1.pun") else if f = (lit "--pun_2") then some (lit "2.pun")
  else if f = (lit "--log_P") then some (lit "P.log") else if f = (lit "--log_1") then some (lit "1.log") else some (lit "2.log")

def takenM (f : Str) : Option Str :=
  if f = (lit "--pun_P") then some (lit "../run.1/both.pun") else if f = (lit "--pun_1") then some (lit "left.pun") else if f = (lit "--pun_2") then some (lit "right.pun")
  else if f = (lit "--log_P") then some (lit "../run.1/both.log") else if f = (lit "--log_1") then some (lit "left.log") else some (lit "../r.log")

/-- The parameters of the one. -/
def parS : Params :=
  { log1 := lit "1.log", log2 := lit "2.log", logP := lit "P.log", pun1 := lit "1.pun", pun2 := lit "2.pun", punP := lit "P.pun",
    spinP := lit "Alpha", spin1 := lit "Alpha", spin2 := lit "Alpha", orbTypeP := [], orbType1 := lit "HOMO", orbType2 := lit "HOMO",
    orbNumP := 0, orbNum1 := 0, orbNum2 := 0, citation := some false, counterPoise := false }

/-- Of the other. -/
def parM : Params :=
  { log1 := lit "left.log", log2 := lit "../r.log", logP := lit "../run.1/both.log", pun1 := lit "left.pun", pun2 := lit "right.pun", punP := lit "../run.1/both.pun",
    spinP := lit "Alpha", spin1 := lit "Alpha", spin2 := lit "Alpha", orbTypeP := [], orbType1 := lit "HOMO", orbType2 := lit "HOMO",
    orbNumP := 0, orbNum1 := 0, orbNum2 := 0, citation := some false, counterPoise := false }

theorem wantsS : Wants filesS argsS parS := by
  refine ⟨asS, takenS, 0, 0, understoodS, ?_, rfl, rfl, by decide +kernel⟩
  intro x hx
  simp only [inputFiles, List.mem_cons, List.not_mem_nil, or_false] at hx
  rcases hx with rfl | rfl | rfl | rfl | rfl | rfl
  all_goals exact explicit (by decide) rfl

theorem wantsM : Wants moved argsM parM := by
  refine ⟨asM, takenM, 0, 0, understoodM, ?_, rfl, rfl, by decide +kernel⟩
  intro x hx
  simp only [inputFiles, List.mem_cons, List.not_mem_nil, or_false] at hx
  rcases hx with rfl | rfl | rfl | rfl | rfl | rfl
  · exact explicit (by decide) rfl
  · exact explicit (by decide) rfl
  · exact explicit (by decide) rfl
  · refine ⟨fun h => absurd h (by decide), fun _ => ?_⟩
    refine ⟨lit "../run.1/", lit "both", lit ".pun", [lit "../run.1/both.log"], ⟨rfl, .inr ⟨lit "../run.1", rfl⟩, by decide, .inr ⟨lit "pun", rfl, by decide⟩⟩, layout_of (by decide),
      .inr ⟨[], lit ".log", [], _, rfl, rfl, by simp, rfl, rfl⟩⟩
  · exact explicit (by decide) rfl
  · exact explicit (by decide) rfl

theorem plain {ext dir x : Str} (h1 : dir = [] ∨ ∃ d, dir = d ++ ['/']) (h2 : '/' ∉ x) (h3 : '.' ∉ x) : PlainName ext (dir ++ x ++ ext) :=
  ⟨dir, x, [], by simp, h1, h2, h3, by simp⟩

theorem both_plain {ext dir x dir' x' : Str} {fs fs' : Str → Option Str} (hc : fs' (dir' ++ x' ++ ext) = fs (dir ++ x ++ ext)) (h1 : dir = [] ∨ ∃ d, dir = d ++ ['/']) (h2 : '/' ∉ x) (h3 : '.' ∉ x)
    (h1' : dir' = [] ∨ ∃ d, dir' = d ++ ['/']) (h2' : '/' ∉ x') (h3' : '.' ∉ x') : SameFile fs fs' ext (dir ++ x ++ ext) (dir' ++ x' ++ ext) :=
  ⟨hc, ⟨fun _ => plain h1 h2 h3, fun _ => plain h1' h2' h3'⟩⟩

theorem sameSM : SameJob filesS moved parS parM where
  punP := both_plain (dir := []) (x := lit "P") (dir' := lit "../run.1/") (x' := lit "both") rfl (.inl rfl) (by decide) (by decide) (.inr ⟨lit "../run.1", rfl⟩) (by decide) (by decide)
  pun1 := both_plain (dir := []) (x := lit "1") (dir' := []) (x' := lit "left") rfl (.inl rfl) (by decide) (by decide) (.inl rfl) (by decide) (by decide)
  pun2 := both_plain (dir := []) (x := lit "2") (dir' := []) (x' := lit "right") rfl (.inl rfl) (by decide) (by decide) (.inl rfl) (by decide) (by decide)
  logP := both_plain (dir := []) (x := lit "P") (dir' := lit "../run.1/") (x' := lit "both") rfl (.inl rfl) (by decide) (by decide) (.inr ⟨lit "../run.1", rfl⟩) (by decide) (by decide)
  log1 := both_plain (dir := []) (x := lit "1") (dir' := []) (x' := lit "left") rfl (.inl rfl) (by decide) (by decide) (.inl rfl) (by decide) (by decide)
  log2 := both_plain (dir := []) (x := lit "2") (dir' := lit "../") (x' := lit "r") rfl (.inl rfl) (by decide) (by decide) (.inr ⟨lit "..", rfl⟩) (by decide) (by decide)
  spins := ⟨rfl, rfl, rfl⟩
  types := ⟨rfl, rfl⟩
  numbers := ⟨rfl, rfl⟩
  counterPoise := rfl

theorem moved_fit : ∀ name text, moved name = some text → Fits text := by
  intro name text h
  unfold moved at h
  split at h; · exact filesS_fit _ _ h
  split at h; · exact filesS_fit _ _ h
  split at h; · exact filesS_fit _ _ h
  split at h; · exact filesS_fit _ _ h
  split at h; · exact filesS_fit _ _ h
  split at h; · exact filesS_fit _ _ h
  cases h

/-- The same comes of both, whatever it is. -/
example (D : Type) [Args.Dbl D] : ∃ out : Res (Report Rat), Does (fun fuel => calcJRun D (id : Rat → Rat) filesS fuel argsS) (withParams parS out) ∧
    Does (fun fuel => calcJRun D (id : Rat → Rat) moved fuel argsM) (withParams parM out) :=
  C155_same _ _ _ filesS_fit moved_fit (by decide) (by decide) wantsS wantsM sameSM

end Verif.SameContents
