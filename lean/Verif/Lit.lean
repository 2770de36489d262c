/-
Notation for string constants: `lit "ab"` is the character list `['a', 'b']`.
-/
namespace Verif
open Lean in
macro "lit " s:str : term => do
  let cs : Array (TSyntax `term) := (s.getString.toList.map (fun c => ((Syntax.mkCharLit c : TSyntax `char) : TSyntax `term))).toArray
  `(([$cs,*] : List Char))
example : lit "a.b" = "a.b".toList := by decide
end Verif
