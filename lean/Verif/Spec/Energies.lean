import Verif.Strings
/-
Specification vocabulary for C114.
-/
namespace Verif.Readers

/-- A word cut before every minus sign in it. -/
def cutMinus : List Char → List (List Char)
  | [] => [[]]
  | c :: w =>
    match cutMinus w with
    | [] => [[c]]
    | p :: ps => if p.head? = some '-' then [c] :: p :: ps else (c :: p) :: ps

example : cutMinus "-101.1-99.2-1.3".toList = ["-101.1".toList, "-99.2".toList, "-1.3".toList] := by decide
example : cutMinus "0.5-1.3--".toList = ["0.5".toList, "-1.3".toList, "-".toList, "-".toList] := by decide
example : cutMinus "0.5".toList = ["0.5".toList] := by decide

end Verif.Readers
