import Verif.Maps
import Verif.Matrix
/-
Model of src/libcatnip/io/file_readers/filereader.cpp and of the parts of <istream> it uses.

A file is the text it contains. Reading it needs no other file system operation, so the file system is a function from
names to contents. Loops that need not terminate take a number of steps (`fuel`) and yield `diverge` when it is used up:
the code terminates with an outcome iff that outcome is reached for all large enough `fuel`, and does not terminate iff
the outcome is `diverge` for every `fuel`.
-/
namespace Verif.Readers
open Strings

/-- An input stream: the text not yet read, `eofbit` and `failbit`. (`badbit` is never set by reading a text.) (filereader.hpp:38, `std::ifstream fid_`, and the `std::istringstream`s of logreader.cpp and punreader.cpp) -/
structure Stream where
  text : Str
  eof : Bool
  fail : Bool
deriving DecidableEq

/-- A freshly opened stream. (filereader.cpp:29-35) -/
def openText (t : Str) : Stream := ⟨t, false, false⟩

/-- `std::getline(is, line)`: the new `line` and stream. If the stream is not good, `failbit` is set and `line` keeps its
value; at the end of the text `line` is emptied and `eofbit` and `failbit` are set; a last line without `'\n'` sets
`eofbit`. (filereader.cpp:17, logreader.cpp:112-346, punreader.cpp:76-87) -/
def getline (s : Stream) (line : Str) : Str × Stream :=
  if s.eof || s.fail then (line, { s with fail := true })
  else match s.text with
    | [] => ([], ⟨[], true, true⟩)
    | c :: t =>
      let l := (c :: t).takeWhile (fun c => c ≠ '\n')
      match (c :: t).dropWhile (fun c => c ≠ '\n') with
      | [] => (l, ⟨[], true, false⟩)
      | _ :: rest => (l, ⟨rest, false, false⟩)

/-- `is >> w` for a string `w`: leading white space is skipped; if nothing is left `w` keeps its value and `eofbit` and
`failbit` are set; reaching the end sets `eofbit`. (logreader.cpp:115-149, 196-211, 244-250) -/
def extract (s : Stream) (w : Str) : Str × Stream :=
  if s.eof || s.fail then (w, { s with fail := true })
  else match s.text.dropWhile isSpace with
    | [] => (w, ⟨[], true, true⟩)
    | c :: t =>
      let rest := (c :: t).dropWhile (fun c => !isSpace c)
      ((c :: t).takeWhile (fun c => !isSpace c), ⟨rest, rest.isEmpty, false⟩)

/-- `tellg()`: a position is the text after it, `none` is -1. Unless the stream is good, `failbit` is set (the sentry does
that) and the result is -1. (filereader.cpp:22, logreader.cpp:300) -/
def tellg (s : Stream) : Option Str × Stream :=
  if s.eof || s.fail then (none, { s with fail := true }) else (some s.text, s)

/-- `seekg(pos)`: `eofbit` is cleared; nothing else happens if the stream has failed; seeking to -1 fails. (logreader.cpp:303, 310, 317) -/
def seekg (s : Stream) (pos : Option Str) : Stream :=
  if s.fail then { s with eof := false }
  else match pos with
    | some t => ⟨t, false, false⟩
    | none => { s with eof := false, fail := true }

/-- filereader.hpp:38-47, the members that change while reading: `fid_`, `pos_`, and `data`, the members of the derived
class. -/
structure FR (σ : Type) where
  fid : Stream
  pos : Option Str
  data : σ

/-- filereader.hpp:41, 44: a section reader function, given the number of steps it may take. -/
abbrev SectionReader (σ : Type) := Nat → FR σ → Res (FR σ)

/-- filereader.hpp:38-44, `sectionHeaders_` and `sectionReaders_`. -/
structure Sections (σ : Type) where
  headers : Map (List Str)
  readers : Map (SectionReader σ)

section
variable {σ : Type}

/-- filereader.cpp:46-62 `checkSections_`. -/
def checkSections (s : Sections σ) : Res Unit :=
  let tags := strSet (s.headers.map (·.1) ++ s.readers.map (·.1))
  if tags.any (fun t => (s.readers.get t).isNone || (s.headers.get t).isNone) then .throw .runtimeError else .ok ()

/-- filereader.cpp:64-70 `fileExt_`. -/
def fileExt (fileName : Str) : Res Str := do
  let path ← lastStringInPath fileName
  let path := trimmed path
  match find (lit ".") path with
  | none => .throw .invalidArgument
  | some index => substr path index npos

/-- filereader.cpp:82-91 `startSection_`. -/
def startSection (headers : Map (List Str)) (line : Str) : Str :=
  match headers.find? (fun th => th.2.any (fun header => foundSubStrInStr line header)) with
  | some th => th.1
  | none => []

/-- filereader.cpp:77-80 `readSection_`: calling through the null pointer that `operator[]` would create is undefined. -/
def readSection (s : Sections σ) (fuel : Nat) (tag : Str) (r : FR σ) : Res (FR σ) :=
  match s.readers.get tag with
  | some f => f fuel r
  | none => .ub

/-- filereader.cpp:17-23, the loop of `read`. -/
def readLoop (s : Sections σ) : Nat → FR σ → Str → Res (FR σ)
  | 0, _, _ => .diverge
  | fuel + 1, r, line =>
    let (line, fid) := getline r.fid line
    if fid.fail then .ok { r with fid := fid }
    else do
      let r : FR σ := { r with fid := fid }
      let tag := startSection s.headers line
      let r ← if tag ≠ [] then readSection s fuel tag r else .ok r
      let (pos, fid) := tellg r.fid
      readLoop s fuel { r with fid := fid, pos := pos } line

/-- filereader.cpp:14-25 `read` (with `open` 29-35 and `fileExist_` 72-75; an existing file is taken to be readable): the
members of the derived class afterwards. `pos_` starts at 0. -/
def read (s : Sections σ) (fs : Str → Option Str) (fileName : Str) (fuel : Nat) (data : σ) : Res σ :=
  match fs fileName with
  | none => .throw .invalidArgument
  | some text => do
    let r ← readLoop s fuel ⟨openText text, some text, data⟩ []
    .ok r.data

end

/-- What the readers use of `double`, besides multiplication: `stod` (which throws on text that is no number), `atof` (which does
not) and `pow(10, ·)`. (logreader.cpp:129, 210, 252, 294, 343, punreader.cpp:54-60) -/
class Num (α : Type) where
  stod : Str → Res α
  atof : Str → α
  pow10 : α → α
  stod_empty : stod [] = .throw .invalidArgument
  stod_cases : ∀ s, (∃ v, stod s = .ok v) ∨ ∃ e, stod s = .throw e

section
variable {α : Type} [Mul α] [Num α]

/-- `while (!iss.eof()) { string s; iss >> s; body(s); }`, the idiom of logreader.cpp:126-130, 145-149, 205-211, 247-261.
Every pass consumes text or sets `eofbit`, so the steps `restOf` allows are enough. -/
def restLoop {β : Type} (body : β → Str → Res β) : Nat → Stream → β → Res β
  | 0, _, _ => .diverge
  | n + 1, iss, acc =>
    if iss.eof then .ok acc
    else do
      let (s, iss) := extract iss []
      let acc ← body acc s
      restLoop body n iss acc

/-- The whole loop. (logreader.cpp:126-130, 145-149, 205-211, 247-261) -/
def restOf {β : Type} (body : β → Str → Res β) (iss : Stream) (acc : β) : Res β :=
  restLoop body (iss.text.length + 2) iss acc

/-- `values.push_back(f(s))`. (logreader.cpp:129, 148, 210) -/
def pushBack {β : Type} (f : Str → Res β) (acc : List β) (s : Str) : Res (List β) := do
  let v ← f s
  .ok (acc ++ [v])

/-- logreader.cpp:208-210 and 250-252: a number in Fortran notation. (C++ leaves the order of the two `stod` open; the model
takes the left one first. Only when both fail does the order show, in the type of the exception.) -/
def fortran (s : Str) : Res α := do
  let val ← grabStrBeforeFirstOccurance s (lit "D")
  let exp ← grabStrAfterFirstOccurance s (lit "D")
  let v ← Num.stod val
  let e ← Num.stod exp
  .ok (v * Num.pow10 e)

end
end Verif.Readers
