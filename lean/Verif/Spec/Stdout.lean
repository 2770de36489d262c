import Verif.Spec.EveryLine
import Verif.Output
/-
Specification vocabulary for C128: everything calc_J writes to standard output, on every command line. A program's writing is a list of texts
and flushes (`Ev`); `Wrote` is such a list together with the way the program ends.
-/
namespace Verif.Run
open Readers QC Log Args

/-! ### the texts -/

/-- Text of these lines. -/
def textOf (lines : List Str) : Str := lines.flatMap (· ++ ['\n'])

/-- An orbital: `HOMO`, `HOMO-3`, `LUMO+2`. -/
def orbitalName (typ : Str) (n : Int) : Str :=
  typ ++ (if n = 0 then [] else if n < 0 then '-' :: Nat.toDigits 10 n.natAbs else '+' :: Nat.toDigits 10 n.natAbs)

/-- What is written first. -/
def greeting (about : About) : Str := textOf [[], (lit "Running calc_J VERSION ") ++ about.version]

/-- The six files. -/
def sixFiles (par : Params.Params) : Str :=
  textOf [(lit "log file for first monomer is:      ") ++ par.log1, (lit "log file for second monomer is:     ") ++ par.log2,
    (lit "log file for dimer is:              ") ++ par.logP, (lit "pun file for the first monomer is:  ") ++ par.pun1,
    (lit "pun file for the second monomer is: ") ++ par.pun2, (lit "pun file for the dimer is:          ") ++ par.punP]

/-- The spins and orbitals. -/
def spinsOrbitals (par : Params.Params) : Str :=
  textOf [[], (lit "Dimer     Spin ") ++ par.spinP,
    (lit "Monomer 1 Spin ") ++ par.spin1 ++ (lit " Orbital ") ++ orbitalName par.orbType1 par.orbNum1,
    (lit "Monomer 2 Spin ") ++ par.spin2 ++ (lit " Orbital ") ++ orbitalName par.orbType2 par.orbNum2]

/-- The five numbers, energies in eV. -/
def numbers {α : Type} [Field α] (print : α → Str) (r : Report α) : Str :=
  textOf [(lit "J_ab  ") ++ print (r.jab * (272114 / 10000)) ++ (lit " eV"), (lit "e_a   ") ++ print (r.ea * (272114 / 10000)) ++ (lit " eV"),
    (lit "e_b   ") ++ print (r.eb * (272114 / 10000)) ++ (lit " eV"), (lit "S_ab  ") ++ print r.sab,
    (lit "J_eff ") ++ print (r.jeff * (272114 / 10000)) ++ (lit " eV")]

/-- The answer to one request for information: the usage, which is flushed, or the citation, which is not. -/
def answer (about : About) (t : Str) : List Ev :=
  if t = (lit "--help") ∨ t = (lit "-h") then
    [.text ((lit "Usage: ") ++ about.program ++ (lit " <options(s)> SOURCES")), .text calcJHelp, .flush]
  else [.text (textOf [[], (lit "Citation: ") ++ about.surname ++ (lit ", ") ++ about.initials ++ (lit " (") ++ about.year ++ (lit "). ") ++
    about.title ++ (lit " (Version ") ++ about.version ++ (lit "). [Software]. Available from ") ++ about.url ++ (lit "."), []])]

/-- What is written before anything is read: the greeting, and the answers to the requests `us`. -/
def preamble (about : About) (us : List Str) : List Ev := [.text (greeting about), .flush] ++ us.flatMap (answer about)

/-- The requests for information that are reached on a command line, in order: those before the first mistake, and before the version is
asked for. -/
inductive Shows : List Str → List Str → Prop
  | nil : Shows [] []
  | info {t ts us} (h : t ∈ infoTokens) : Shows ts us → Shows (t :: ts) (t :: us)
  | value {f s k t v ts us} (h : (f, s, k) ∈ valueFlags) (ht : t = f ∨ t = s) (hv : ValueOk k v) : Shows ts us → Shows (t :: v :: ts) us
  | switch {t f ts us} (h : (t, f) ∈ switchTokens) (hn : ∀ u us, ts = u :: us → u ∈ flagTokens) : Shows ts us → Shows (t :: ts) us
  | version {t ts} (h : t ∈ versionTokens) : Shows (t :: ts) []
  | missing {f s k t} (h : (f, s, k) ∈ valueFlags) (ht : t = f ∨ t = s) : Shows [t] []
  | bad {f s k t v ts} (h : (f, s, k) ∈ valueFlags) (ht : t = f ∨ t = s) (hv : ¬ ValueOk k v) : Shows (t :: v :: ts) []
  | stray {t f u ts} (h : (t, f) ∈ switchTokens) (hu : u ∉ flagTokens) : Shows (t :: u :: ts) []
  | unknown {t ts} (h : t ∉ flagTokens) (hv : t ∉ versionTokens) : Shows (t :: ts) []

/-! ### how far a calculation gets -/

/-- What is known when the orbitals are printed. -/
structure Ready (α : Type) where
  C1 : List (List α)
  C2 : List (List α)
  CP : List (List α)
  E1 : List α × Nat
  E2 : List α × Nat
  EP : List α × Nat
  n : Nat
  c2 : Int → Int → α
  cP : Int → Int → α
  s : Int → Int → α

section
variable {α β : Type} [Zero α] [One α] [Add α] [Sub α] [Mul α] [Div α] [DecidableEq β]

/-- The first part of `outcome`: everything needed is there, the sizes fit and the atoms are put in order. -/
noncomputable def ready (tos : α → β) (cp : Bool) (S : Option (Nat × List (Nat × Nat × α))) (P m1 m2 : Found α) : Res (Ready α) := do
  let S ← need .ub S
  let CP ← need (.throw .invalidArgument) P.orbitals
  let EP ← need (.throw .outOfRange) P.energies
  let E1 ← need (.throw .outOfRange) m1.energies
  let C1 ← need (.throw .invalidArgument) m1.orbitals
  let E2 ← need (.throw .outOfRange) m2.energies
  let C2 ← need (.throw .invalidArgument) m2.orbitals
  let xP ← need (.throw .outOfRange) P.atoms
  let x1 ← need (.throw .outOfRange) m1.atoms
  let x2 ← need (.throw .outOfRange) m2.atoms
  if width CP = S.1 ∧ (if cp then width C1 = S.1 ∧ width C2 = S.1 else width C1 + width C2 ≤ S.1) then do
    let (c2, cP, s) ←
      if m1.counts ≠ [] ∧ m2.counts ≠ [] ∧ P.counts ≠ [] then
        inOrder tos cp x1 x2 xP m2.counts P.counts S.1 (coefficient C2) (coefficient CP) (overlap S)
      else .ok (coefficient C2, coefficient CP, overlap S)
    .ok ⟨C1, C2, CP, E1, E2, EP, S.1, c2, cP, s⟩
  else .throw .invalidArgument

/-- The second part: the orbitals asked for are there and the coupling is computed. -/
noncomputable def finish (cp : Bool) (kind1 : Str) (num1 : Int) (kind2 : Str) (num2 : Int) (x : Ready α) : Res (Report α) := do
  let row1 ← chosen x.C1 x.E1 kind1 num1
  let row2 ← chosen x.C2 x.E2 kind2 num2
  if Conforming cp (width x.C1) (width x.C2) x.n ∧ x.EP.1.length = x.CP.length then
    .ok (Machine.report x.CP.length (Machine.proj x.n x.n (zetaA cp (width x.C1) (coefficient x.C1 row1)) x.s x.cP)
      (Machine.proj x.n x.n (zetaB cp (width x.C1) (x.c2 row2)) x.s x.cP) (fun m => x.EP.1.getD (m - 1).toNat 0))
  else .exit 1

end

/-! ### the whole -/

section
variable {α β : Type} [Field α] [Num α] [DecidableEq β]

/-- What calc_J writes with the parameters `par`, when reading the six files gives this: the files; once everything is found to be there, the
orbitals; and at the end the numbers. -/
noncomputable def calcJSays (tos : α → β) (print : α → Str) (par : Params.Params) (spinP spin1 spin2 : Log.Spin)
    (punP pun1 pun2 : Res (Pun.Known α)) (logP log1 log2 : Res (LogLines.Known α × List Int)) : Wrote (Params.Params × Report α) := do
  .say (sixFiles par)
  let punP ← .quiet punP
  let pun1 ← .quiet pun1
  let pun2 ← .quiet pun2
  let logP ← .quiet logP
  let log1 ← .quiet log1
  let log2 ← .quiet log2
  let x ← .quiet (ready tos par.counterPoise logP.1.overlap (found spinP punP logP) (found spin1 pun1 log1) (found spin2 pun2 log2))
  .line (spinsOrbitals par)
  let r ← .quiet (finish par.counterPoise par.orbType1 par.orbNum1 par.orbType2 par.orbNum2 x)
  .say (numbers print r)
  pure (par, r)

/-- What calc_J writes on a command line, and how it ends, when there are these files and reading the file `name` gives `pun name` or
`log name`. The cases are those of `Line` (C124). -/
inductive Writes (tos : α → β) (print : α → Str) (about : About) (files : Str → Option Str) (pun : Str → Res (Pun.Known α))
    (log : Str → Res (LogLines.Known α × List Int)) (args : List Str) : Wrote (Params.Params × Report α) → Prop
  /-- the version is asked for: it is in the greeting -/
  | version {us} : Stops args → Shows args us → Writes tos print about files pun log args ⟨preamble about us, .exit 0⟩
  /-- only information is asked for -/
  | info : args ≠ [] → (∀ t ∈ args, t ∈ infoTokens) → Writes tos print about files pun log args ⟨preamble about args, .exit 0⟩
  /-- nothing is asked for: the usage is shown -/
  | nothing : args = [] → Writes tos print about files pun log args ⟨preamble about [(lit "--help")], .throw .runtimeError⟩
  /-- a command line that is not understood -/
  | refused {e us} : Refused args e → Shows args us → Writes tos print about files pun log args ⟨preamble about us, .throw e⟩
  /-- a command line that is understood -/
  | understood {as} {r : Str → Option Str} {n1 n2 : Int} {spinP spin1 spin2 : Log.Spin} {us : List Str} : Understood args as → Shows args us →
      (∀ x ∈ inputFiles, Takes (fun name => (files name).isSome) as x.1 x.2.1 x.2.2 (r x.1)) →
      AskedNum as (lit "--orbital_num_1") n1 → AskedNum as (lit "--orbital_num_2") n2 →
      askedSpin as (lit "--spin_P") = spinP.name → askedSpin as (lit "--spin_1") = spin1.name → askedSpin as (lit "--spin_2") = spin2.name →
      Writes tos print about files pun log args (do
        Wrote.mk (preamble about us) (.ok ())
        let par ← .quiet (parameters as r n1 n2)
        calcJSays tos print par spinP spin1 spin2 (pun par.punP) (pun par.pun1) (pun par.pun2) (log par.logP) (log par.log1) (log par.log2))

end

/-- A program writes this and ends so, or, if that is the outcome, never ends and writes no more than this. -/
def Performs {γ : Type} (f : Nat → Wrote γ) (w : Wrote γ) : Prop :=
  Does (fun n => (f n).res) w.res ∧ ∃ N, ∀ n, N ≤ n → (f n).evs = w.evs

/-- What may be seen of it by someone who looks at standard output: all of it after a normal end and after `exit`, perhaps followed by a
diagnostic if the exit status is not zero; but when an exception is not caught, or as long as the program runs, what was not flushed
may be missing. -/
def Seen {γ : Type} (w : Wrote γ) (t : Str) : Prop :=
  match w.res with
  | .ok _ => t = said w.evs
  | .exit n => said w.evs <+: t ∧ (n = 0 → t = said w.evs)
  | .throw _ => sure w.evs <+: t ∧ t <+: said w.evs
  | .diverge => sure w.evs <+: t ∧ t <+: said w.evs
  | .ub => True

end Verif.Run
