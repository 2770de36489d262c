import Verif.Props.Refuses
import Verif.Props.AcceptsEx
/-
A parser that meets the hypotheses of C131, with command lines refused for different reasons.
-/
namespace Verif.Args
section
variable {D : Type} [Dbl D]

/-- The shop's parser, on a file system with the file `x.in` only, refuses: a number beyond `int`, a number above its bound, a flag without its value,
a switch followed by a word, a text that is not among the choices, a file that does not exist, an unknown flag - each after a beginning that is in order;
and a command line that does not name the file. -/
theorem shop_throws : ∃ p : Parser D, shopParser = .ok p ∧ ParserReached p ∧ Orderly p ∧ Enforcing p ∧
    ∀ x ∈ [([(lit "-d"), (lit "99999999999")], Exn.outOfRange), ([(lit "-q"), (lit "-d"), (lit "10")], .invalidArgument),
      ([(lit "-h"), (lit "-d"), (lit "3"), (lit "--name")], .runtimeError), ([(lit "-q"), (lit "ON"), (lit "-d"), (lit "3")], .invalidArgument),
      ([(lit "-n"), (lit "c")], .invalidArgument), ([(lit "-i"), (lit "y.in")], .invalidArgument), ([(lit "-z")], .invalidArgument),
      ([(lit "-d"), (lit "3")], .runtimeError)],
      parse (fun v => v == (lit "x.in")) p x.1 = .throw x.2 := by
  obtain ⟨p, e, h1, h2, h3, -⟩ := shopParser_ok (D := D)
  refine ⟨p, e, h1, h2, h3, ?_⟩
  obtain rfl : p = _ := (Res.ok.inj e).symm
  intro x hx
  simp only [List.mem_cons, List.not_mem_nil, or_false] at hx
  rcases hx with rfl | rfl | rfl | rfl | rfl | rfl | rfl | rfl <;> rfl

/-- And C131 says what is wrong with them. -/
example (hd : StodOk D) : ∃ p : Parser D, shopParser = .ok p ∧ Refuses (fun v => v == (lit "x.in")) p [(lit "-d"), (lit "99999999999")] .outOfRange ∧
    (Refuses (fun v => v == (lit "x.in")) p [(lit "-d"), (lit "3")] .runtimeError ∨ Lacks (fun v => v == (lit "x.in")) p [(lit "-d"), (lit "3")]) := by
  obtain ⟨p, e, h1, h2, h3, h⟩ := shop_throws (D := D)
  refine ⟨p, e, ?_, ?_⟩
  · rcases (C131_throws _ h1 h2 h3 hd _ (by simp [Strings.Fits]) _).1 (h ([(lit "-d"), (lit "99999999999")], .outOfRange) (by simp)) with ⟨h, -⟩ | h | ⟨-, h⟩
    · cases h
    · exact h
    · cases h
  · rcases (C131_throws _ h1 h2 h3 hd _ (by simp [Strings.Fits]) _).1 (h ([(lit "-d"), (lit "3")], .runtimeError) (by simp)) with ⟨h, -⟩ | h | ⟨h, -⟩
    · cases h
    · exact .inl h
    · exact .inr h

end
end Verif.Args
