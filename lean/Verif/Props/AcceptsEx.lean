import Verif.Props.Accepts
/-
A parser that meets the hypotheses of C106, with command lines that it accepts and rejects.
-/
namespace Verif.Args
section
variable {D : Type} [Dbl D]

/-- A parser with a bounded number, a text with enforced choices, a file that must exist, and a switch. -/
def shopParser : Res (Parser D) := do
  let p ← newParser [[(lit "--depth"), (lit "-d")], [(lit "--name"), (lit "-n")], [(lit "--input"), (lit "-i")], [(lit "--quiet"), (lit "-q")]]
  let p ← addFlagArg p (lit "--depth") (lit "ARGUMENT_INT")
  let p ← addFlagArg p (lit "--name") (lit "ARGUMENT_STRING")
  let p ← addFlagArg p (lit "--input") (lit "ARGUMENT_FILE")
  let p ← addFlagArg p (lit "--quiet") (lit "ARGUMENT_SWITCH")
  let p ← setOptInt p (lit "--depth") (lit "ARGUMENT_INT") (lit "PROPERTY_INT") (lit "MAX") 9
  let p ← setOptSet p (lit "--name") (lit "ARGUMENT_STRING") (lit "PROPERTY_STRING_CHOICE") (lit "STRING_CHOICES") [(lit "a"), (lit "b")]
  let p ← setOptSet p (lit "--name") (lit "ARGUMENT_STRING") (lit "PROPERTY_STRING_CHOICE") (lit "STRING_CHOICE_ENFORCED") [(lit "true")]
  setOptInt p (lit "--input") (lit "ARGUMENT_FILE") (lit "PROPERTY_FILE_EXIST") (lit "FILE_MUST_EXIST") 1

theorem shopParser_reached {p : Parser D} (h : shopParser = .ok p) : ParserReached p := by
  obtain ⟨p1, e1, h⟩ := Res.bind_eq_ok.1 h
  obtain ⟨p2, e2, h⟩ := Res.bind_eq_ok.1 h
  obtain ⟨p3, e3, h⟩ := Res.bind_eq_ok.1 h
  obtain ⟨p4, e4, h⟩ := Res.bind_eq_ok.1 h
  obtain ⟨p5, e5, h⟩ := Res.bind_eq_ok.1 h
  obtain ⟨p6, e6, h⟩ := Res.bind_eq_ok.1 h
  obtain ⟨p7, e7, h⟩ := Res.bind_eq_ok.1 h
  obtain ⟨p8, e8, h⟩ := Res.bind_eq_ok.1 h
  exact .optInt _ _ _ _ _ (.optSet _ _ _ _ _ (.optSet _ _ _ _ _ (.optInt _ _ _ _ _ (.addFlagArg _ _ (.addFlagArg _ _ (.addFlagArg _ _
    (.addFlagArg _ _ (.new _ e1) e2) e3) e4) e5) e6) e7) e8) h

theorem shop_orderly {p : Parser D} (h1 : p.strArg.map (·.1) = [(lit "--name")]) (h2 : p.switchArg.map (·.1) = [(lit "--quiet")])
    (h3 : p.intArg.map (·.1) = [(lit "--depth")]) (h4 : p.doubleArg = []) (h5 : p.fileArg.map (·.1) = [(lit "--input")])
    (h6 : p.flags.map (fun f => (f.1, f.2.1)) = [((lit "--depth"), (lit "-d")), ((lit "--help"), (lit "-h")), ((lit "--input"), (lit "-i")), ((lit "--name"), (lit "-n")),
      ((lit "--quiet"), (lit "-q"))]) (h7 : ∀ f ∈ [(lit "--depth"), (lit "--input"), (lit "--name"), (lit "--quiet")], p.flags.get f ≠ none) :
    Orderly p := by
  have key : ∀ f k, HasArg p f k → (f, k) ∈ [((lit "--name"), ArgKind.str), ((lit "--quiet"), .switch), ((lit "--depth"), .int), ((lit "--input"), .file)] := by
    intro f k h
    cases k with
    | str => have := get_key h; rw [h1] at this; simp only [List.mem_singleton] at this; subst this; decide
    | switch => have := get_key h; rw [h2] at this; simp only [List.mem_singleton] at this; subst this; decide
    | int => have := get_key h; rw [h3] at this; simp only [List.mem_singleton] at this; subst this; decide
    | double => simp [HasArg, h4] at h
    | file => have := get_key h; rw [h5] at this; simp only [List.mem_singleton] at this; subst this; decide
  have hn : p.flags.map (·.1) = [(lit "--depth"), (lit "--help"), (lit "--input"), (lit "--name"), (lit "--quiet")] := by
    have := congrArg (List.map Prod.fst) h6
    rw [List.map_map] at this
    exact this
  refine ⟨?_, ?_, ?_, ?_⟩
  · intro f k k' a b
    replace a := key _ _ a
    replace b := key _ _ b
    simp only [List.mem_cons, List.not_mem_nil, or_false, Prod.mk.injEq] at a b
    rcases a with ⟨rfl, rfl⟩ | ⟨rfl, rfl⟩ | ⟨rfl, rfl⟩ | ⟨rfl, rfl⟩ <;> rcases b with ⟨b, rfl⟩ | ⟨b, rfl⟩ | ⟨b, rfl⟩ | ⟨b, rfl⟩ <;>
      first | rfl | exact absurd b (by decide)
  · intro f k a
    apply h7
    replace a := key _ _ a
    simp only [List.mem_cons, List.not_mem_nil, or_false, Prod.mk.injEq] at a ⊢
    rcases a with ⟨rfl, rfl⟩ | ⟨rfl, rfl⟩ | ⟨rfl, rfl⟩ | ⟨rfl, rfl⟩ <;> simp
  · rw [hn]; decide
  · intro f f' s d d' a b
    replace a : (f, s) ∈ p.flags.map (fun f => (f.1, f.2.1)) := List.mem_map.2 ⟨_, Map.get_mem a, rfl⟩
    replace b : (f', s) ∈ p.flags.map (fun f => (f.1, f.2.1)) := List.mem_map.2 ⟨_, Map.get_mem b, rfl⟩
    rw [h6] at a b
    simp only [List.mem_cons, List.not_mem_nil, or_false, Prod.mk.injEq] at a b
    rcases a with ⟨rfl, rfl⟩ | ⟨rfl, rfl⟩ | ⟨rfl, rfl⟩ | ⟨rfl, rfl⟩ | ⟨rfl, rfl⟩ <;>
      rcases b with ⟨rfl, b⟩ | ⟨rfl, b⟩ | ⟨rfl, b⟩ | ⟨rfl, b⟩ | ⟨rfl, b⟩ <;> first | rfl | exact absurd b (by decide)

/-- The hypotheses of C106 are met, and both outcomes occur: the file system has the file `x.in` only. -/
theorem shopParser_ok : ∃ p : Parser D, shopParser = .ok p ∧ ParserReached p ∧ Orderly p ∧ Enforcing p ∧ NeedsFile p (lit "--input") ∧
    (∃ q, parse (fun v => v == (lit "x.in")) p [(lit "-d"), (lit "3"), (lit "--input"), (lit "x.in"), (lit "-q"), (lit "-n"), (lit "b")] = .ok q) ∧
    (∀ args ∈ [[(lit "-d"), (lit "3")], [(lit "-i"), (lit "x.in"), (lit "-d"), (lit "10")], [(lit "-i"), (lit "y.in")],
      [(lit "-i"), (lit "x.in"), (lit "-n"), (lit "c")]],
      ∃ e, parse (fun v => v == (lit "x.in")) p args = .throw e) := by
  refine ⟨_, rfl, shopParser_reached rfl, shop_orderly rfl rfl rfl rfl rfl rfl ?_, ?_, ?_, ⟨_, rfl⟩, ?_⟩
  · intro f hf
    simp only [List.mem_cons, List.not_mem_nil, or_false] at hf
    rcases hf with rfl | rfl | rfl | rfl <;> exact (by intro h; cases h)
  · rintro f a ha ⟨q, hq, -, h⟩
    have := Map.get_mem ha
    replace this : (f, a) ∈ [_] := this
    rw [List.mem_singleton] at this
    cases this
    replace hq : q ∈ [_] := hq
    rw [List.mem_singleton] at hq
    subst hq
    cases h
  · refine ⟨_, 1, rfl, ⟨_, List.mem_singleton.2 rfl, rfl, rfl⟩, by decide, ⟨_, List.mem_singleton.2 rfl, rfl, rfl⟩⟩
  · intro args h
    simp only [List.mem_cons, List.not_mem_nil, or_false] at h
    rcases h with rfl | rfl | rfl | rfl <;> exact ⟨_, rfl⟩

end

/-- `StodOk` is met, too. -/
example : @StodOk (Option Int) dblNaN := by
  intro v
  have key : (∃ n, stoi v = .ok n) ∨ ∃ e, stoi v = .throw e := by
    unfold stoi
    split
    · exact .inr ⟨_, rfl⟩
    · split
      · exact .inr ⟨_, rfl⟩
      · exact .inl ⟨_, rfl⟩
  show (∃ x, dblNaN.stod v = .ok x) ∨ ∃ e, dblNaN.stod v = .throw e
  unfold dblNaN
  dsimp only
  rcases key with ⟨n, h⟩ | ⟨e, h⟩ <;> rw [h]
  · exact .inl ⟨_, rfl⟩
  · exact .inr ⟨_, rfl⟩

end Verif.Args
