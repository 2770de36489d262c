import Verif.Spec.Accepts
import Verif.Spec.ArgOptions
import Verif.ArgHeap
/-
Specification vocabulary for C135: programs with any number of parsers, some of them copies of others.
-/
namespace Verif.Args

section
variable {D : Type}

/-- The arguments that pointers lead to. -/
def deref {A : Type} (arena : List A) (m : Map Nat) : Map A := m.filterMap fun e => (arena[e.2]?).map fun a => (e.1, a)

/-- The parser as its user sees it: with the arguments its pointers lead to. -/
def InMem.seen (x : InMem D) : Parser D :=
  ⟨deref x.st.str x.h.strArg, deref x.st.switch x.h.switchArg, deref x.st.int x.h.intArg, deref x.st.double x.h.doubleArg,
    deref x.st.file x.h.fileArg, x.h.flags, x.h.defaultsSet, x.h.ints, x.h.doubles, x.h.strs, x.h.sizes⟩

/-- The pointer to the argument of a flag. -/
def Handle.ptr (h : Handle D) : ArgKind → Str → Option Nat
  | .str, f => h.strArg.get f
  | .switch, f => h.switchArg.get f
  | .int, f => h.intArg.get f
  | .double, f => h.doubleArg.get f
  | .file, f => h.fileArg.get f

/-- Parser `i` of the program, as its user sees it. -/
def World.sees (w : World D) (i : Nat) : Option (Parser D) := (w.ps[i]?).map fun h => InMem.seen ⟨w.st, h⟩

/-- Two parsers have one and the same argument object for the flag. -/
def Shares (w : World D) (i j : Nat) (k : ArgKind) (f : Str) : Prop :=
  ∃ h h' n, w.ps[i]? = some h ∧ w.ps[j]? = some h' ∧ h.ptr k f = some n ∧ h'.ptr k f = some n

/-- How many argument objects there are. -/
def World.objects (w : World D) : Nat := w.st.str.length + w.st.switch.length + w.st.int.length + w.st.double.length + w.st.file.length

/-- What a program does with parsers: `ArgumentParser p(flags)`, `ArgumentParser q(p)` or `q = p` where `p` is parser number `i` (a new parser gets the
next number), and calls. -/
inductive Deed (D : Type)
  | make (flags : List (List Str))
  | copy (i : Nat)
  | assign (dst source : Nat)
  | call (i : Nat) (c : Call D)

/-- The program before it made any parser. -/
def World.empty : World D := ⟨⟨[], [], [], [], []⟩, []⟩
end

section
variable {D : Type} [Dbl D]

/-- One deed and what it leaves. Calls may have thrown; a constructor that threw made no parser. -/
inductive Step : World D → Deed D → World D → Prop
  | make {w h} (flags) : newParserH flags = .ok h → Step w (.make flags) ⟨w.st, w.ps ++ [h]⟩
  | copy {w h} (i) : w.ps[i]? = some h → Step w (.copy i) ⟨w.st, w.ps ++ [h]⟩
  | assign {w h} (dst source) : w.ps[source]? = some h → dst < w.ps.length → Step w (.assign dst source) ⟨w.st, w.ps.set dst h⟩
  | call {w h} (i c) : w.ps[i]? = some h → Calm (c.onMem ⟨w.st, h⟩).2 →
      Step w (.call i c) ⟨(c.onMem ⟨w.st, h⟩).1.st, w.ps.set i (c.onMem ⟨w.st, h⟩).1.h⟩

/-- What a program has come to after some deeds. -/
inductive Later (w : World D) : List (Deed D) → World D → Prop
  | refl : Later w [] w
  | step {ds d v v'} : Later w ds v → Step v d v' → Later w (ds ++ [d]) v'

/-- What a program can come to. -/
def Past (w : World D) : Prop := ∃ ds, Later World.empty ds w

/-- A call on parser `i` that allocates an argument object: `addFlagArg` that succeeds, and `setFlagArgOpt` for a flag that has no such argument yet - also if it
throws, and then the object is lost. -/
def Allocates (p : Parser D) : Call D → Prop
  | .addFlagArg f a => ∃ q, addFlagArg p f a = .ok q
  | .optInt f a _ _ _ => (a = (lit "ARGUMENT_INT") ∧ ¬ HasArg p f .int) ∨ (a = (lit "ARGUMENT_STRING") ∧ ¬ HasArg p f .str) ∨
      (a = (lit "ARGUMENT_SWITCH") ∧ ¬ HasArg p f .switch) ∨ (a = (lit "ARGUMENT_FILE") ∧ ¬ HasArg p f .file)
  | .optDouble f a _ _ _ => (a = (lit "ARGUMENT_DOUBLE") ∧ ¬ HasArg p f .double) ∨ (a = (lit "ARGUMENT_STRING") ∧ ¬ HasArg p f .str)
  | .optStr f a _ _ _ => (a = (lit "ARGUMENT_FILE") ∧ ¬ HasArg p f .file) ∨ (a = (lit "ARGUMENT_SWITCH") ∧ ¬ HasArg p f .switch) ∨
      (a = (lit "ARGUMENT_STRING") ∧ ¬ HasArg p f .str)
  | .optSet f a _ _ _ => (a = (lit "ARGUMENT_FILE") ∧ ¬ HasArg p f .file) ∨ (a = (lit "ARGUMENT_STRING") ∧ ¬ HasArg p f .str)
  | .optVec f a _ _ _ => a = (lit "ARGUMENT_FILE") ∧ ¬ HasArg p f .file
  | _ => False

/-- `addFlagArg` exchanges an argument: the double argument of a flag that has one (`r` is how the call ended). -/
def Renews (c : Call D) (r : Res Unit) (k : ArgKind) (f : Str) : Prop := c = .addFlagArg f (lit "ARGUMENT_DOUBLE") ∧ k = .double ∧ r = .ok ()

/-- What a call on one parser, which is now `p'`, does to another one, which was `q`: the flag's argument changes where the two share it, and nothing else. -/
structure Bystander (share : ArgKind → Str → Prop) (p' q q' : Parser D) : Prop where
  flags : q'.flags = q.flags
  defaults : q'.defaultsSet = q.defaultsSet
  ints : q'.ints = q.ints
  doubles : q'.doubles = q.doubles
  strs : q'.strs = q.strs
  sizes : q'.sizes = q.sizes
  str : ∀ f, (share .str f → q'.strArg.get f = p'.strArg.get f) ∧ (¬ share .str f → q'.strArg.get f = q.strArg.get f)
  switch : ∀ f, (share .switch f → q'.switchArg.get f = p'.switchArg.get f) ∧ (¬ share .switch f → q'.switchArg.get f = q.switchArg.get f)
  int : ∀ f, (share .int f → q'.intArg.get f = p'.intArg.get f) ∧ (¬ share .int f → q'.intArg.get f = q.intArg.get f)
  double : ∀ f, (share .double f → q'.doubleArg.get f = p'.doubleArg.get f) ∧ (¬ share .double f → q'.doubleArg.get f = q.doubleArg.get f)
  file : ∀ f, (share .file f → q'.fileArg.get f = p'.fileArg.get f) ∧ (¬ share .file f → q'.fileArg.get f = q.fileArg.get f)

/-- The flag has the same argument in both parsers. -/
def SameArg (p q : Parser D) : ArgKind → Str → Prop
  | .str, f => p.strArg.get f = q.strArg.get f
  | .switch, f => p.switchArg.get f = q.switchArg.get f
  | .int, f => p.intArg.get f = q.intArg.get f
  | .double, f => p.doubleArg.get f = q.doubleArg.get f
  | .file, f => p.fileArg.get f = q.fileArg.get f

/-- The names of the arguments whose options can be read. -/
def ArgKind.word : ArgKind → Option Str
  | .str => some (lit "ARGUMENT_STRING")
  | .switch => some (lit "ARGUMENT_SWITCH")
  | .int => some (lit "ARGUMENT_INT")
  | .file => some (lit "ARGUMENT_FILE")
  | .double => none

/-- The deed assigns to the parser. -/
def Deed.overwrites (d : Deed D) (i : Nat) : Prop := ∃ s, d = .assign i s

/-- The deed calls a function of the parser. -/
def Deed.calls (d : Deed D) (i : Nat) : Prop := ∃ c, d = .call i c

end
end Verif.Args
