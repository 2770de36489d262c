import Verif.ArgParser
/-
Model of the help text: `showUsage` (argumentparser.cpp:96-141) and the sizes its columns depend on, which the constructor computes
(argumentparser.cpp:24-25, 58-60 and 71-73).
-/
namespace Verif.Args
open Strings

/-- argumentparser.cpp:43-73, the sizes `maxFullFlagSize` and `maxShortFlagSize` after one more item. -/
def sizeItem (m : Nat × Nat) (item0 : Str) : Nat × Nat :=
  let item := trimmed item0
  if item.take 2 = (lit "--") then (max m.1 item.length, m.2)
  else if item.take 1 = (lit "-") then (m.1, max m.2 item.length)
  else m

/-- argumentparser.cpp:18-28, the two sizes after the constructor's loop over all flags. -/
def flagSizes (flags : List (List Str)) : Nat × Nat :=
  (vecSetInsert [(lit "--help"), (lit "-h"), (lit "Display help message")] flags).foldl (fun m flag => flag.foldl sizeItem m) (0, 0)

/-- argumentparser.cpp:104-108 and 110-114: `diff = width - size` in `size_t`, then `for (i = 0; i <= diff; ++i)` prints blanks. For
the largest `size_t` the loop's condition is always true. -/
def padding (width size : Nat) : Res Str :=
  let diff := toSize ((width : Int) - size)
  if diff = 2 ^ 64 - 1 then .diverge else .ok (List.replicate (diff + 1) ' ')

/-- argumentparser.cpp:126-136, the words of the description; `used` is `words_size` (sizes are taken to stay below 2^64). -/
def wrapWords (allowed space : Nat) : Nat → List Str → Str
  | _, [] => []
  | used, w :: ws =>
    let used := used + (w.length + 1)
    if used < allowed then w ++ (lit " ") ++ wrapWords allowed space used ws
    else (lit "\n") ++ List.replicate space ' ' ++ w ++ (lit " ") ++ wrapWords allowed space 0 ws

/-- argumentparser.cpp:103-138, the loop body for one flag; `maxLineLength` is 80 (argumentparser.hpp:49). -/
def usageItem (sizes : Nat × Nat) (out : Str) (item : Str × (Str × Str)) : Res Str := do
  let pad1 ← padding sizes.1 item.1.length
  let pad2 ← padding sizes.2 item.2.1.length
  let space := sizes.1 + sizes.2 + 2
  let allowed := toSize (80 - (space : Int))
  .ok (out ++ item.1 ++ pad1 ++ item.2.1 ++ pad2 ++ wrapWords allowed space 0 (splitSt item.2.2) ++ (lit "\n\n"))

/-- argumentparser.cpp:96-141 `showUsage`: what it prints for the registered flags and the sizes of the constructor. -/
def showUsage (flags : Map (Str × Str)) (sizes : Nat × Nat) : Res Str := do
  let out ← flags.foldlM (usageItem sizes) (lit "\n\nOptions:\n\n")
  .ok (out ++ (lit "\n"))

end Verif.Args
