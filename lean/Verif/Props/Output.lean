import Verif.OutputLemmas
import Verif.Props.Main
import Verif.ConcreteJob
import Verif.TosLemmas
/-
C82: what calc_J prints.
-/
namespace Verif
open Strings Readers QC Mat

section
variable {α β : Type} [Field α] [Num α] [DecidableEq β] {D : Type} [Args.Dbl D]

/-- A line of the output: `text` contains `line` as one of its lines. -/
def HasLine (text line : Str) : Prop := ∃ a b, text = a ++ line ++ '\n' :: b ∧ (a = [] ∨ ∃ a', a = a' ++ ['\n'])

/-- Text of these lines. -/
def block (lines : List Str) : Str := lines.flatMap (· ++ ['\n'])

/-- C82 (the result is the last line): whenever calc_J ends normally, the coupling it computed - the one C79 is about - stands on the
last line of its output, in eV. -/
theorem C82_last_line (tos : α → β) (print : α → Str) (about : About) (files : Str → Option Str) (fuel : Nat) (args : List Str) {J : α}
    (h : calcJMain D tos files fuel args = .ok J) :
    ∃ pre, calcJOutput D tos print about files fuel args =
      .ok (pre ++ '\n' :: (lit "J_eff ") ++ print (J * (272114 / 10000)) ++ (lit " eV\n")) := by
  unfold calcJMain at h
  obtain ⟨⟨par, r⟩, e, h⟩ := Res.bind_eq_ok.1 h
  obtain rfl : r.jeff = J := Res.ok.inj h
  rw [calcJOutput_eq, e, Res.ok_bind]
  refine ⟨startText about.version ++ said (parsing D about files args) ++ filesText par ++ orbitalsText par ++
    ((lit "J_ab  ") ++ print (r.jab * hartreeToeV) ++ (lit " eV\n") ++
    (lit "e_a   ") ++ print (r.ea * hartreeToeV) ++ (lit " eV\n") ++ (lit "e_b   ") ++ print (r.eb * hartreeToeV) ++ (lit " eV\n") ++
    (lit "S_ab  ") ++ print r.sab), ?_⟩
  simp [outputText, resultText, hartreeToeV, List.append_assoc]

/-- Some calc_J. -/
def someAbout : About := ⟨(lit "calc_J"), (lit "1.9"), (lit "Brown"), (lit "J. S."), (lit "2018"), (lit "Catnip"), (lit "https://x.org")⟩

example (print : Rat → Str) : ∃ fuel pre, calcJOutput D (id : Rat → Rat) print someAbout Sample.files fuel
      [(lit "-p_P"), (lit "P.pun"), (lit "-p_1"), (lit "1.pun"), (lit "-p_2"), (lit "2.pun")] =
    .ok (pre ++ '\n' :: (lit "J_eff ") ++ print (-282251 / 85696 * (272114 / 10000)) ++ (lit " eV\n")) := by
  obtain ⟨-, n, h⟩ := sample_job (D := D)
  exact ⟨n, C82_last_line id print _ _ _ _ (h n (Nat.le_refl n))⟩

set_option maxRecDepth 4000 in
/-- C82 (the text): the whole output of a run that ends normally, line by line: the six files, the spins and orbitals, and the five numbers
under their names, all but the overlap in eV. Between the version and the files is what was asked for with `--help` and `--citation`, if
anything (see C128). -/
theorem C82_text (tos : α → β) (print : α → Str) (about : About) (files : Str → Option Str) (fuel : Nat) (args : List Str)
    {par : Params.Params} {r : Report α} (h : calcJRun D tos files fuel args = .ok (par, r)) :
    ∃ info, ((∀ t ∈ args, t ∉ Args.infoTokens) → info = []) ∧ calcJOutput D tos print about files fuel args = .ok (
      block [[], (lit "Running calc_J VERSION ") ++ about.version] ++ info ++
      block [(lit "log file for first monomer is:      ") ++ par.log1, (lit "log file for second monomer is:     ") ++ par.log2,
      (lit "log file for dimer is:              ") ++ par.logP, (lit "pun file for the first monomer is:  ") ++ par.pun1,
      (lit "pun file for the second monomer is: ") ++ par.pun2, (lit "pun file for the dimer is:          ") ++ par.punP, [],
      (lit "Dimer     Spin ") ++ par.spinP,
      (lit "Monomer 1 Spin ") ++ par.spin1 ++ (lit " Orbital ") ++ orbitalLabel par.orbType1 par.orbNum1,
      (lit "Monomer 2 Spin ") ++ par.spin2 ++ (lit " Orbital ") ++ orbitalLabel par.orbType2 par.orbNum2,
      (lit "J_ab  ") ++ print (r.jab * (272114 / 10000)) ++ (lit " eV"), (lit "e_a   ") ++ print (r.ea * (272114 / 10000)) ++ (lit " eV"),
      (lit "e_b   ") ++ print (r.eb * (272114 / 10000)) ++ (lit " eV"), (lit "S_ab  ") ++ print r.sab,
      (lit "J_eff ") ++ print (r.jeff * (272114 / 10000)) ++ (lit " eV")]) := by
  refine ⟨said (parsing D about files args), fun hi => ?_, ?_⟩
  · have h0 : args ≠ [] := by
      rintro rfl
      unfold calcJRun at h
      rw [Args.prepareParser_ok] at h
      cases h
    rw [parsing_plain about files h0 hi]
    rfl
  · rw [calcJOutput_eq, h, Res.ok_bind]
    simp [block, outputText, startText, filesText, orbitalsText, resultText, hartreeToeV, List.append_assoc]

/-- The last two lines of the block of the files have a text of their own in front of them. -/
theorem hasLine_append {text line : Str} (pre : Str) (hp : pre = [] ∨ ∃ p, pre = p ++ ['\n']) (h : HasLine text line) : HasLine (pre ++ text) line := by
  obtain ⟨a, b, e, ha⟩ := h
  refine ⟨pre ++ a, b, by rw [e]; simp [List.append_assoc], ?_⟩
  rcases ha with rfl | ⟨a', rfl⟩
  · simpa using hp
  · exact .inr ⟨pre ++ a', by simp⟩

/-- C82 (and only then): output is complete exactly when a coupling was computed; otherwise calc_J ends in the same way. -/
theorem C82_same_outcome (tos : α → β) (print : α → Str) (about : About) (files : Str → Option Str) (fuel : Nat) (args : List Str) :
    ((∃ t, calcJOutput D tos print about files fuel args = .ok t) ↔ ∃ J, calcJMain D tos files fuel args = .ok J) ∧
    (∀ e, calcJOutput D tos print about files fuel args = .throw e ↔ calcJMain D tos files fuel args = .throw e) ∧
    (∀ n, calcJOutput D tos print about files fuel args = .exit n ↔ calcJMain D tos files fuel args = .exit n) ∧
    (calcJOutput D tos print about files fuel args = .ub ↔ calcJMain D tos files fuel args = .ub) := by
  rw [calcJOutput_eq]
  unfold calcJMain
  cases calcJRun D tos files fuel args <;> simp [Res.ok_bind, Res.throw_bind, Res.exit_bind, bind, Res.bind]

omit [Num α] in
/-- C82 (the numbers): the five numbers `calculate_transfer_integral` prints are the coupling and the site energies before
orthogonalisation, the overlap, and the coupling after it. -/
theorem C82_numbers {coef1 coef2 coefP S oe : Mat α} {cp : Bool} {n1 n2 M N K : Int} {u v : Int → α} {C s : Int → Int → α} {E : Int → α}
    (h1 : Values coef1 1 n1 (fun _ j => u j)) (h2 : Values coef2 1 n2 (fun _ j => v j)) (hP : Values coefP M N C)
    (hS : Values S K N s) (hE : VectorOf oe M E) (hc : Conforming cp n1 n2 K) :
    let gA := proj K N (zetaA cp n1 u) s C
    let gB := proj K N (zetaB cp n1 v) s C
    ∃ r, transferReport coef1 coef2 coefP S oe cp = .ok r ∧ r.jab = couplingJ M gA gB E ∧ r.ea = siteEnergy M gA E ∧
      r.eb = siteEnergy M gB E ∧ r.sab = overlapAB M gA gB ∧ r.jeff = QC.coupling M gA gB E ∧
      calculateTransferIntegral coef1 coef2 coefP S oe cp = .ok r.jeff := by
  refine ⟨_, report_eq h1 h2 hP hS hE hc, rfl, rfl, rfl, rfl, rfl, calculate_of_report (report_eq h1 h2 hP hS hE hc)⟩

/-- C82 (consistent): in every run that ends normally the numbers printed satisfy
`J_eff = (J_ab - (e_a + e_b) S_ab / 2) / (1 - S_ab²)`, also after conversion to eV. -/
theorem C82_consistent (tos : α → β) (files : Str → Option Str) (fuel : Nat) (args : List Str) {par : Params.Params} {r : Report α}
    (h : calcJRun D tos files fuel args = .ok (par, r)) :
    r.jeff = (r.jab - (r.ea + r.eb) * r.sab / 2) / (1 - r.sab ^ 2) ∧
    r.jeff * hartreeToeV = (r.jab * hartreeToeV - (r.ea * hartreeToeV + r.eb * hartreeToeV) * r.sab / 2) / (1 - r.sab ^ 2) := by
  obtain ⟨q, h1, h2, h3, prP, pr1, pr2, lrP, lr1, lr2, g1, g2, g3, g4, g5, g6, S, coefP, coef1, coef2, eP, e1, e2, homo1, homo2, row1, row2,
    k1, k2, k3, k4, k5, k6, k7, k8, k9, k10, k11, k12, k13⟩ := C82_sound tos files fuel args h
  have key : ∀ {cp : Bool} {coef1 coef2 coefP S : Mat α} {E : List α} {row1 row2 : Int},
      IsReport cp coef1 coef2 coefP S E row1 row2 r → r.jeff = (r.jab - (r.ea + r.eb) * r.sab / 2) / (1 - r.sab ^ 2) := by
    intro cp coef1 coef2 coefP S E row1 row2 hr
    obtain ⟨N1, n1, N2, n2, M, N, K, c1, c2, C, s, -, -, -, -, -, -, -, -, -, -, rfl⟩ := hr
    rfl
  have e : r.jeff = (r.jab - (r.ea + r.eb) * r.sab / 2) / (1 - r.sab ^ 2) := by
    by_cases hp : HavePopulations lrP lr1 lr2
    · obtain ⟨x1, x2, xP, T, T', a1, a2, a3, a4, a5, a6, a7, a8, a9⟩ := k13 hp
      exact key a9
    · exact key (k12 hp)
  refine ⟨e, ?_⟩
  have conv : ∀ c : α, r.jeff * c = (r.jab * c - (r.ea * c + r.eb * c) * r.sab / 2) / (1 - r.sab ^ 2) := by
    intro c
    have e' : (r.jab - (r.ea + r.eb) * r.sab / 2) * c = r.jab * c - (r.ea * c + r.eb * c) * r.sab / 2 := by ring
    rw [e, div_mul_eq_mul_div, e']
  exact conv _

theorem toDigits_inj {a b : Nat} (h : Nat.toDigits 10 a = Nat.toDigits 10 b) : a = b := by
  rw [← Tos.toDigits_val a, h, Tos.toDigits_val]

theorem toDigits_ne_nil (a : Nat) : Nat.toDigits 10 a ≠ [] := by
  intro h
  have := Nat.length_toDigits_pos (b := 10) (n := a)
  rw [h] at this
  exact absurd this (by decide)

/-- C82 (labels): the HOMO, and the orbitals below it as HOMO-1, HOMO-2, ... -/
theorem C82_label_homo {n : Int} (h : n ≤ 0) :
    orbitalLabel "HOMO".toList n = "HOMO".toList ++ (if n = 0 then [] else '-' :: Nat.toDigits 10 n.natAbs) := by
  unfold orbitalLabel intToStr
  by_cases h0 : n = 0
  · simp [h0]
  · rw [if_neg h0, if_neg (by omega), if_neg h0, if_pos (by omega)]

/-- C82 (labels): the LUMO, and the orbitals above it as LUMO+1, LUMO+2, ... -/
theorem C82_label_lumo {n : Int} (h : 0 ≤ n) :
    orbitalLabel "LUMO".toList n = "LUMO".toList ++ (if n = 0 then [] else '+' :: Nat.toDigits 10 n.natAbs) := by
  unfold orbitalLabel intToStr
  by_cases h0 : n = 0
  · simp [h0]
  · rw [if_neg h0, if_pos (by omega), if_neg h0, if_neg (by omega), List.append_assoc]; rfl

/-- C82 (labels): the labels printed for two orbitals of a monomer are the same exactly if they are the same orbital. -/
theorem C82_label {orbs : Int × Int} {k k' : Str} {n n' row row' : Int} (h : NamesOrbital orbs k n row) (h' : NamesOrbital orbs k' n' row') :
    orbitalLabel k n = orbitalLabel k' n' ↔ row = row' := by
  have inj : ∀ (c : Char) {a b : Int}, (0 ≤ a ∧ 0 ≤ b ∨ a ≤ 0 ∧ b ≤ 0) →
      (if a = 0 then [] else c :: Nat.toDigits 10 a.natAbs) = (if b = 0 then [] else c :: Nat.toDigits 10 b.natAbs) → a = b := by
    intro c a b hab e
    split at e <;> split at e
    · omega
    · cases e
    · cases e
    · have := toDigits_inj (List.cons.inj e).2
      omega
  have diff : ∀ x y : Str, "HOMO".toList ++ x ≠ "LUMO".toList ++ y := by
    intro x y e
    exact absurd (List.cons.inj e).1 (by decide)
  rcases h with ⟨rfl, a1, a2, rfl⟩ | ⟨rfl, a1, a2, rfl⟩ <;> rcases h' with ⟨rfl, b1, b2, rfl⟩ | ⟨rfl, b1, b2, rfl⟩
  · rw [C82_label_homo a1, C82_label_homo b1, List.append_cancel_left_eq]
    constructor
    · intro e; have := inj '-' (.inr ⟨a1, b1⟩) e; omega
    · intro e
      have : n = n' := by omega
      rw [this]
  · rw [C82_label_homo a1, C82_label_lumo b1]
    constructor
    · intro e; exact absurd e (diff _ _)
    · intro e; omega
  · rw [C82_label_lumo a1, C82_label_homo b1]
    constructor
    · intro e; exact absurd e.symm (diff _ _)
    · intro e; omega
  · rw [C82_label_lumo a1, C82_label_lumo b1, List.append_cancel_left_eq]
    constructor
    · intro e; have := inj '+' (.inl ⟨a1, b1⟩) e; omega
    · intro e
      have : n = n' := by omega
      rw [this]

example : orbitalLabel (lit "HOMO") (-3) = (lit "HOMO-3") ∧ orbitalLabel (lit "LUMO") 12 = (lit "LUMO+12") ∧
    orbitalLabel (lit "HOMO") 0 = (lit "HOMO") := by decide

end
end Verif
