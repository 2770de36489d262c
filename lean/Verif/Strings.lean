import Verif.Res
import Verif.QC
import Verif.Lit
/-
Model of src/libcatnip/string_support.cpp.

`std::string` is a list of characters (`Str`), each standing for one `char`. `size_t` arithmetic is modulo 2^64. The
comparisons `(int)found != -1` in `lastStringInPath` and `getPath` are taken to mean "not found" (true below 2^32-1
characters). `isspace` is that of the "C" locale; the code passes a possibly negative `char` to it, which is undefined
for bytes above 127 and not modelled.
-/
namespace Verif

/-- `isspace` in the "C" locale. (string_support.cpp:33, 39) -/
def isSpace (c : Char) : Bool :=
  c = ' ' || c = '\t' || c = '\n' || c = '\r' || c = Char.ofNat 11 || c = Char.ofNat 12

/-- `isalpha` in the "C" locale. (string_support.cpp:169) -/
def isAlpha (c : Char) : Bool := ('a' ≤ c && c ≤ 'z') || ('A' ≤ c && c ≤ 'Z')

namespace Strings

/-- `std::string::substr(pos, len)`: `out_of_range` when `pos > size`, at most the characters that exist. (string_support.cpp:64, 77, 79, 84-92, 131-161) -/
def substr (s : Str) (pos len : Nat) : Res Str :=
  if pos > s.length then .throw .outOfRange else .ok ((s.drop pos).take len)

/-- Conversion of an integer to `size_t`. (string_support.cpp:84-92) -/
def toSize (n : Int) : Nat := (n % 2 ^ 64).toNat

/-- `std::string::npos`. (string_support.cpp:84, 165) -/
def npos : Nat := 2 ^ 64 - 1

/-- `std::string::find_first_of(chars)`. (string_support.cpp:62, 75) -/
def findFirstOf (chars s : Str) : Option Nat := s.findIdx? (fun c => chars.contains c)

/-- `std::string::find_last_of(chars)`. (string_support.cpp:135, 141, 153, 159) -/
def findLastOf (chars s : Str) : Option Nat :=
  (s.reverse.findIdx? (fun c => chars.contains c)).map (fun i => s.length - 1 - i)

/-- `std::string::find(occ)`: the first position at which `occ` occurs. (string_support.cpp:127, 147, 165) -/
def find (occ : Str) : Str → Option Nat
  | [] => if occ = [] then some 0 else none
  | c :: s => if occ.isPrefixOf (c :: s) then some 0 else (find occ s).map (· + 1)

/-- string_support.cpp:19-24, PATH_SEPERATOR_ (not on Windows). -/
def pathSep : Str := (lit "/")

/-- string_support.cpp:31-34 `ltrim_`. -/
def ltrim (s : Str) : Str := s.dropWhile isSpace

/-- string_support.cpp:37-41 `rtrim_`. -/
def rtrim (s : Str) : Str := (s.reverse.dropWhile isSpace).reverse

/-- string_support.cpp:47: the tokens an `istream_iterator<string>` delivers; `acc` is the token being read, reversed. -/
def tokens : Str → Str → List Str
  | acc, [] => if acc = [] then [] else [acc.reverse]
  | acc, c :: s =>
    if isSpace c then (if acc = [] then tokens [] s else acc.reverse :: tokens [] s)
    else tokens (c :: acc) s

/-- string_support.cpp:44-55 `splitSt`. -/
def splitSt (input : Str) : List Str := (tokens [] input).filter (fun item => !item.isEmpty)

/-- string_support.cpp:61-65, the loop of `lastStringInPath`, at most `fuel` iterations. Simplification: `(int)found != -1` is taken to mean
that a separator was found, which is so in strings of less than 2^32 characters. -/
def lastStringLoop : Nat → Str → Res Str
  | 0, _ => .diverge
  | fuel + 1, line =>
    match findFirstOf pathSep line with
    | none => .ok line
    | some found => do
      let line ← substr line (found + 1) line.length
      lastStringLoop fuel line

/-- string_support.cpp:57-67 `lastStringInPath`. Every iteration shortens `line`, so the fuel is enough
(`lastStringInPath_ok` in `Verif.Props.Strings`). -/
def lastStringInPath (input : Str) : Res Str := lastStringLoop (input.length + 1) input

/-- string_support.cpp:74-80, the loop of `getPath` (`found = npos` on the last pass: `found + 1` wraps to 0). Simplification as above. -/
def getPathLoop (input : Str) : Nat → Str → Nat → Res Str
  | 0, _, _ => .diverge
  | fuel + 1, line, found2 =>
    match findFirstOf pathSep line with
    | none => do
      let _ ← substr line 0 line.length
      substr input 0 found2
    | some found => do
      let line ← substr line (found + 1) line.length
      let found2 := found2 + (found + 1)
      let _ ← substr input 0 found2
      getPathLoop input fuel line found2

/-- string_support.cpp:69-82 `getPath`. -/
def getPath (input : Str) : Res Str := getPathLoop input (input.length + 1) input 0

/-- string_support.cpp:84 `lastN`; `input.size() - n` is computed in `size_t`. -/
def lastN (input : Str) (n : Int) : Res Str := substr input (toSize (input.length - n)) npos

/-- string_support.cpp:86-88 `cut_end`. -/
def cutEnd (input : Str) (n : Int) : Res Str := substr input 0 (toSize (input.length - n))

/-- string_support.cpp:90 `firstN`; a negative `n` becomes a huge length. -/
def firstN (input : Str) (n : Int) : Res Str := substr input 0 (toSize n)

/-- string_support.cpp:92 `cut_beg`. -/
def cutBeg (input : Str) (n : Int) : Res Str := substr input (toSize n) input.length

/-- string_support.cpp:95-98 `trim`, 101-104 `ltrimmed`, 107-110 `rtrimmed`, 113-116 `trimmed`. -/
def trimmed (s : Str) : Str := rtrim (ltrim s)
/-- string_support.cpp:101-104. -/
def ltrimmed (s : Str) : Str := ltrim s
/-- string_support.cpp:107-110. -/
def rtrimmed (s : Str) : Str := rtrim s

/-- string_support.cpp:118-123 `removeSpace` on a buffer `buf` of `char`s: read index `r`, write index `w`; `'\x00'` ends
the string. Reading past the buffer is undefined behaviour. -/
def removeSpaceLoop : Nat → List Char → Nat → Nat → Res (List Char)
  | 0, _, _, _ => .diverge
  | fuel + 1, buf, r, w =>
    match buf[r]? with
    | none => .ub
    | some c =>
      let buf' := if c ≠ ' ' then buf.set w c else buf
      let w' := if c ≠ ' ' then w + 1 else w
      if c = Char.ofNat 0 then .ok buf' else removeSpaceLoop fuel buf' (r + 1) w'

/-- string_support.cpp:118-123. -/
def removeSpace (buf : List Char) : Res (List Char) := removeSpaceLoop (buf.length + 1) buf 0 0

/-- string_support.cpp:125-132. -/
def grabStrAfterFirstOccurance (s occ : Str) : Res Str :=
  match find occ s with
  | none => .ok []
  | some pos => substr s (pos + occ.length) npos

/-- string_support.cpp:134-138. -/
def grabStrAfterLastOccurance (s occ : Str) : Res Str :=
  match findLastOf occ s with
  | none => .ok []
  | some pos => substr s (pos + 1) npos

/-- string_support.cpp:140-144. -/
def grabStrAfterLastOccuranceInclusive (s occ : Str) : Res Str :=
  match findLastOf occ s with
  | none => .ok []
  | some pos => substr s pos npos

/-- string_support.cpp:146-150. -/
def grabStrBeforeFirstOccurance (s occ : Str) : Res Str :=
  match find occ s with
  | none => .ok s
  | some pos => substr s 0 pos

/-- string_support.cpp:152-156. -/
def grabStrBeforeLastOccurance (s occ : Str) : Res Str :=
  match findLastOf occ s with
  | none => .ok s
  | some pos => substr s 0 pos

/-- string_support.cpp:158-162. -/
def grabStrBeforeLastOccuranceInclusive (s occ : Str) : Res Str :=
  match findLastOf occ s with
  | none => .ok s
  | some pos => substr s 0 (pos + 1)

/-- string_support.cpp:164-166. -/
def foundSubStrInStr (s sub : Str) : Bool := (find sub s).isSome

/-- string_support.cpp:168-172 `isAlphabetical`. -/
def isAlphabetical (s : Str) : Bool := s.all isAlpha && !s.isEmpty

end Strings
end Verif
