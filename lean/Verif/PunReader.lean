import Verif.Readers
/-
Model of src/libcatnip/io/file_readers/punreader.cpp (LOG messages are dropped).
-/
namespace Verif.Readers
open Strings

/-- punreader.hpp:28, the data member `coefs` (what the pointers point to). -/
abbrev PunData (α : Type) := Map (Mat α)

variable {α : Type} [Mul α] [Num α]

/-- punreader.cpp:51-60, the loop of `readGausCoefLine`, at most `fuel` passes. `line.length() - indent` is computed in
`size_t`; `indent` never exceeds the length, so it does not wrap. (It is an `int`, so lines of 2^31
characters or more are not modelled.) -/
def gausLoop (line : Str) : Nat → Nat → List α → Res (List α)
  | 0, _, _ => .diverge
  | fuel + 1, indent, values =>
    if toSize ((line.length : Int) - indent) ≥ 15 then do
      let str ← substr line (0 + indent) 11
      let d ← Num.stod (trimmed str)
      let str ← substr line (12 + indent) 3
      let d2 ← Num.stod (trimmed str)
      gausLoop line fuel (indent + 15) (values ++ [d * Num.pow10 d2])
    else .ok values

/-- punreader.cpp:47-62 `readGausCoefLine`. -/
def readGausCoefLine (line : Str) : Res (List α) := gausLoop line (line.length + 1) 0 []

/-- punreader.cpp:67 `pattern`. -/
def moPattern : Str := (lit " MO OE")

/-- punreader.cpp:79-88, the lines of one orbital: stream, `line` and `row`. `current_count` is the length of `row`. -/
def rowLoop (firstRowSet : Bool) (count : Nat) : Nat → Stream → Str → List α → Res (Stream × Str × List α)
  | 0, _, _, _ => .diverge
  | fuel + 1, fid, line, row =>
    if foundSubStrInStr line moPattern then .ok (fid, line, row)
    else if firstRowSet && row.length ≥ count then .ok (fid, line, row)
    else do
      let coef ← readGausCoefLine line
      let (line, fid) := getline fid line
      rowLoop firstRowSet count fuel fid line (row ++ coef)

/-- punreader.cpp:74-94, the loop over the orbitals: stream and `v_vec`. -/
def coefLoop (orbType : Str) : Nat → Bool → Nat → Stream → List (List α) → Res (Stream × List (List α))
  | 0, _, _, _, _ => .diverge
  | fuel + 1, firstRowSet, count, fid, vVec => do
    let (line, fid) := getline fid []
    let (fid, line, row) ← rowLoop firstRowSet count fuel fid line []
    let vVec := vVec ++ [row]
    if !foundSubStrInStr line orbType then .ok (fid, vVec)
    else coefLoop orbType fuel true row.length fid vVec

/-- punreader.cpp:64-99 `ReadCoef`, called for the spin by 101-109. -/
def readCoef (orbType : Str) : SectionReader (PunData α) := fun fuel r => do
  let (fid, vVec) ← coefLoop orbType fuel false 0 r.fid []
  let m ← Mat.ofVecVec vVec
  .ok { r with fid := fid, data := r.data.set orbType m }

/-- punreader.cpp:22-30 `registerSections_` (before the check): the maps in iteration order. -/
def punSections : Sections (PunData α) where
  headers := [((lit "CoefAlpha"), [(lit " 1 Alpha MO ")]), ((lit "CoefBeta"), [(lit " 1 Beta MO ")])]
  readers := [((lit "CoefAlpha"), readCoef (lit "Alpha")), ((lit "CoefBeta"), readCoef (lit "Beta"))]

/-- punreader.cpp:32-38 `getCoefsMatrix`. -/
def PunData.getCoefsMatrix (d : PunData α) (orbType : Str) : Res (Mat α) :=
  match d.get orbType with
  | some m => .ok m
  | none => .throw .invalidArgument

/-- punreader.hpp:16 `restrictedShell`. -/
def PunData.restrictedShell (d : PunData α) : Bool := d.length = 1

/-- punreader.cpp:17-20 the constructor, with `validFileName_` 40-45. -/
def punReaderNew (fileName : Str) : Res Unit := do
  let ext ← fileExt fileName
  if ext ≠ (lit ".pun") then .throw .invalidArgument
  else checkSections (punSections : Sections (PunData α))

/-- `PunReader pr(fileName); pr.read();`: what the reader holds afterwards. (main.cpp:52-78) -/
def readPun (fs : Str → Option Str) (fuel : Nat) (fileName : Str) : Res (PunData α) := do
  let _ ← punReaderNew (α := α) fileName
  read punSections fs fileName fuel []

end Verif.Readers
