import Verif.ArgParser
/-
Specification vocabulary for flag declarations: what one declared flag (a list of at most three strings) says, independently of the
order of its items.
-/
namespace Verif.Args
open Strings

/-- A full flag name begins with two dashes. -/
def isFullName (s : Str) : Bool := s.take 2 = (lit "--")

/-- An abbreviation begins with one dash only. -/
def isAbbrev (s : Str) : Bool := s.take 1 = (lit "-") && !isFullName s

/-- Anything else is a description. -/
def isDescription (s : Str) : Bool := !isFullName s && !isAbbrev s

/-- The declaration gives exactly one full name, at most one abbreviation and at most one description. -/
structure Declares (flag : List Str) (full : Str) (short desc : Option Str) : Prop where
  full : (flag.map trimmed).filter isFullName = [full]
  short : (flag.map trimmed).filter isAbbrev = short.toList
  desc : (flag.map trimmed).filter isDescription = desc.toList

/-- A declaration the constructor is documented to accept. -/
def GoodFlag (flag : List Str) : Prop := flag.length ≤ 3 ∧ ∃ full short desc, Declares flag full short desc

/-- The flag every parser has (argumentparser.cpp:18-22). -/
def helpFlag : List Str := [(lit "--help"), (lit "-h"), (lit "Display help message")]

/-- What is registered for a missing abbreviation or description. -/
def registered (short desc : Option Str) : Str × Str :=
  (short.getD (lit "NO_SHORT_FLAG_SPECIFIED"), desc.getD (lit "NO_DESCRIPTION_GIVEN"))

end Verif.Args
