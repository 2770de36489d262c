import Verif.Props.ArgRetry
import Verif.Props.AcceptsEx
import Verif.Props.ArgSetLeft
import Verif.CalcJ
/-
Property C134: parsers that refused a command line. They meet the hypotheses of C134, and show what a caller may not rely on.
-/
namespace Verif.Args
section
variable {D : Type} [Dbl D]

theorem made {β : Type} {x : Res (Parser D)} {p : Parser D} (e : x = .ok p) (f : Parser D → β) {y : β} (h : (x >>= fun p => Res.ok (f p)) = .ok y) : f p = y := by
  rw [e] at h
  exact Res.ok.inj h

/-- The values of a number and of a text after a command line was read. -/
def both (fs : FS) (p : Parser D) (args : List Str) (f : Str) : Res (Int × Str) := do
  let r ← parse fs p args
  let n ← getInt r f
  let s ← getStr r f
  .ok (n, s)

theorem both_ok {fs : FS} {p : Parser D} {args : List Str} {f : Str} {n : Int} {s : Str} (h : both fs p args f = .ok (n, s)) :
    ∃ r, parse fs p args = .ok r ∧ getInt r f = .ok n ∧ getStr r f = .ok s := by
  obtain ⟨r, e1, h⟩ := Res.bind_eq_ok.1 h
  obtain ⟨n', e2, h⟩ := Res.bind_eq_ok.1 h
  obtain ⟨s', e3, h⟩ := Res.bind_eq_ok.1 h
  cases h
  exact ⟨r, e1, e2, e3⟩

/-- C134: reading a command line is not all or nothing. The shop's parser refuses the unknown flag `-z`, but keeps the value of the flag before it. -/
theorem C134_not_atomic : ∃ p q : Parser D, ParserReached p ∧ Orderly p ∧ Enforcing p ∧
    parseL (fun _ => false) p [(lit "-d"), (lit "3"), (lit "-z")] = (q, .throw .invalidArgument) ∧
    getInt p (lit "--depth") = .throw .invalidArgument ∧ getInt q (lit "--depth") = .ok 3 := by
  obtain ⟨p, e, h1, h2, h3, -⟩ := shopParser_ok (D := D)
  refine ⟨p, (parseL (fun _ => false) p [(lit "-d"), (lit "3"), (lit "-z")]).1, h1, h2, h3, Prod.ext rfl ?_, ?_, ?_⟩
  · exact made e (fun p => (parseL (fun _ => false) p [(lit "-d"), (lit "3"), (lit "-z")]).2) (by kernel_rfl)
  · exact made e (fun p => getInt p (lit "--depth")) (by kernel_rfl)
  · exact made e (fun p => getInt (parseL (fun _ => false) p [(lit "-d"), (lit "3"), (lit "-z")]).1 (lit "--depth")) (by kernel_rfl)

/-- C134: after `-q OFF`, which is refused, the switch is off and says so; after `-q`, which then is accepted, it is on and still says "OFF".
The parser that was not given `-q OFF` says "ON". -/
theorem C134_switch_text : ∃ p q : Parser D, ParserReached p ∧ Orderly p ∧ Enforcing p ∧
    parseL (fun _ => true) p [(lit "-q"), (lit "OFF")] = (q, .throw .invalidArgument) ∧
    getInt q (lit "--quiet") = .ok 0 ∧ getStr q (lit "--quiet") = .ok (lit "OFF") ∧
    (∃ r, parse (fun _ => true) q [(lit "-i"), (lit "x.in"), (lit "-q")] = .ok r ∧
      getInt r (lit "--quiet") = .ok 1 ∧ getStr r (lit "--quiet") = .ok (lit "OFF")) ∧
    ∃ s, parse (fun _ => true) p [(lit "-i"), (lit "x.in"), (lit "-q")] = .ok s ∧
      getInt s (lit "--quiet") = .ok 1 ∧ getStr s (lit "--quiet") = .ok (lit "ON") := by
  obtain ⟨p, e, h1, h2, h3, -⟩ := shopParser_ok (D := D)
  refine ⟨p, (parseL (fun _ => true) p [(lit "-q"), (lit "OFF")]).1, h1, h2, h3, Prod.ext rfl ?_, ?_, ?_, both_ok ?_, both_ok ?_⟩
  · exact made e (fun p => (parseL (fun _ => true) p [(lit "-q"), (lit "OFF")]).2) (by kernel_rfl)
  · exact made e (fun p => getInt (parseL (fun _ => true) p [(lit "-q"), (lit "OFF")]).1 (lit "--quiet")) (by kernel_rfl)
  · exact made e (fun p => getStr (parseL (fun _ => true) p [(lit "-q"), (lit "OFF")]).1 (lit "--quiet")) (by kernel_rfl)
  · exact made e (fun p => both (fun _ => true) (parseL (fun _ => true) p [(lit "-q"), (lit "OFF")]).1 [(lit "-i"), (lit "x.in"), (lit "-q")] (lit "--quiet"))
      (by kernel_rfl)
  · exact made e (fun p => both (fun _ => true) p [(lit "-i"), (lit "x.in"), (lit "-q")] (lit "--quiet")) (by kernel_rfl)

/-- Setters that throw: an option that does not exist, of an argument the flag has and of one it has not; an argument the flag has already. -/
example : ∃ p : Parser D, ParserReached p ∧ (setOptIntL p (lit "--depth") (lit "ARGUMENT_INT") (lit "PROPERTY_INT") (lit "MID") 3).2 = .throw .invalidArgument ∧
    (setOptStrL p (lit "--depth") (lit "ARGUMENT_FILE") (lit "PROPERTY_FILE_EXT") (lit "EXT") (lit ".in")).2 = .throw .invalidArgument ∧
    (addFlagArgL p (lit "--depth") (lit "ARGUMENT_INT")).2 = .throw .invalidArgument := by
  obtain ⟨p, e, h1, -⟩ := shopParser_ok (D := D)
  refine ⟨p, h1, ?_, ?_, ?_⟩
  · exact made e (fun p => (setOptIntL p (lit "--depth") (lit "ARGUMENT_INT") (lit "PROPERTY_INT") (lit "MID") 3).2) (by kernel_rfl)
  · exact made e (fun p => (setOptStrL p (lit "--depth") (lit "ARGUMENT_FILE") (lit "PROPERTY_FILE_EXT") (lit "EXT") (lit ".in")).2) (by kernel_rfl)
  · exact made e (fun p => (addFlagArgL p (lit "--depth") (lit "ARGUMENT_INT")).2) (by kernel_rfl)

/-- The shop's parser, when files must end in ".in". -/
def deskParser : Res (Parser D) := do
  let p ← shopParser
  setOptSet p (lit "--input") (lit "ARGUMENT_FILE") (lit "PROPERTY_FILE_EXT") (lit "ALLOWED_FILE_EXT") [(lit ".in")]

theorem deskParser_ok : ∃ p : Parser D, deskParser = .ok p ∧ ParserReached p ∧ Orderly p ∧ Enforcing p ∧ NeedsFile p (lit "--input") := by
  obtain ⟨p0, e, h1, h2, h3, -⟩ := shopParser_ok (D := D)
  obtain rfl : p0 = _ := (Res.ok.inj e).symm
  refine ⟨_, rfl, .optSet (lit "--input") (lit "ARGUMENT_FILE") (lit "PROPERTY_FILE_EXT") (lit "ALLOWED_FILE_EXT") [(lit ".in")] h1 rfl, ?_, ?_, ?_⟩
  · refine shop_orderly rfl rfl rfl rfl rfl rfl ?_
    intro f hf
    simp only [List.mem_cons, List.not_mem_nil, or_false] at hf
    rcases hf with rfl | rfl | rfl | rfl <;> exact (by intro h; cases h)
  · exact fun f a ha => h3 f a ha
  · refine ⟨_, 1, rfl, ⟨_, List.mem_singleton.2 rfl, rfl, rfl⟩, by decide, ⟨_, List.mem_singleton.2 rfl, rfl, rfl⟩⟩

/-- C134: a path that is refused for its extension, but exists, is enough to satisfy a flag whose file must exist: the next command line need not
name a file, is accepted, and the flag has no value. Before, that command line was refused. -/
theorem C134_wrong_path : ∃ p q : Parser D, ParserReached p ∧ Orderly p ∧ Enforcing p ∧ NeedsFile p (lit "--input") ∧
    parseL (fun v => v == (lit "x.out")) p [(lit "-i"), (lit "x.out")] = (q, .throw .invalidArgument) ∧
    parse (fun v => v == (lit "x.out")) p [(lit "-d"), (lit "3")] = .throw .runtimeError ∧
    ∃ r, parse (fun v => v == (lit "x.out")) q [(lit "-d"), (lit "3")] = .ok r ∧ getStr r (lit "--input") = .throw .invalidArgument := by
  obtain ⟨p, e, h1, h2, h3, h4⟩ := deskParser_ok (D := D)
  refine ⟨p, (parseL (fun v => v == (lit "x.out")) p [(lit "-i"), (lit "x.out")]).1, h1, h2, h3, h4, Prod.ext rfl ?_, ?_, ?_⟩
  · exact made e (fun p => (parseL (fun v => v == (lit "x.out")) p [(lit "-i"), (lit "x.out")]).2) (by kernel_rfl)
  · exact made e (fun p => parse (fun v => v == (lit "x.out")) p [(lit "-d"), (lit "3")]) (by kernel_rfl)
  · have := made e (fun p => parse (fun v => v == (lit "x.out")) (parseL (fun v => v == (lit "x.out")) p [(lit "-i"), (lit "x.out")]).1
      [(lit "-d"), (lit "3")] >>= fun r => Res.ok (getStr r (lit "--input"))) (y := .ok (.throw .invalidArgument)) (by kernel_rfl)
    obtain ⟨r, e1, e2⟩ := Res.bind_eq_ok.1 this
    exact ⟨r, e1, Res.ok.inj e2⟩

end
end Verif.Args
