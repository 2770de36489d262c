import Verif.Readers
/-
Model of src/libcatnip/io/file_readers/logreader.cpp (LOG messages are dropped).
-/
namespace Verif.Readers
open Strings

/-! ### splitStEnergies -/

/-- logreader.cpp:42-59, the loop over one item, at most `fuel` passes. Every pass shortens `s`. `erase(0, n)` removes at
most the characters there are. -/
def splitItemLoop : Nat → Str → Option Nat → List Str → Res (List Str)
  | 0, _, _, _ => .diverge
  | _ + 1, _, none, items2 => .ok items2
  | fuel + 1, s, some pos, items2 => do
    let token ← substr s 0 pos
    if pos = 0 then
      let tempS := s.drop 1
      match find (lit "-") tempS with
      | none =>
        let token := s
        let pos := s.length
        let s := (s.drop 1).drop pos
        splitItemLoop fuel s (find (lit "-") s) (items2 ++ [token])
      | some pos =>
        let token ← substr s 0 (pos + 1)
        let s := (s.drop 1).drop pos
        splitItemLoop fuel s (find (lit "-") s) (items2 ++ [token])
    else
      let s := s.drop pos
      splitItemLoop fuel s (find (lit "-") s) (items2 ++ [token])

/-- logreader.cpp:33-63, the loop over the items; `inc` is the index of the first one. -/
def splitItems : Nat → List Str → List Str → Res (List Str)
  | _, [], items2 => .ok items2
  | inc, s :: items, items2 => do
    let items2 ←
      if inc < 4 then Res.ok (items2 ++ [s])
      else match find (lit "-") s with
        | none => Res.ok (items2 ++ [s])
        | some pos => splitItemLoop (s.length + 1) s (some pos) items2
    splitItems (inc + 1) items items2

/-- logreader.cpp:20-65 `splitStEnergies`. -/
def splitStEnergies (line : Str) : Res (List Str) :=
  let items := splitSt line
  if items.length = 9 then .ok items else splitItems 0 items []

/-! ### the class -/

/-- logreader.hpp:13-15 `orb_cont`: the entries of the map in iteration order. -/
abbrev OrbCont (α : Type) := List ((Int × Str) × Map (List α))

/-- `operator<` on `std::pair<int, std::string>`. (C++ standard library; the order of the keys of `orb_cont`, logreader.hpp:13-15) -/
def pairLt (a b : Int × Str) : Bool := a.1 < b.1 || (a.1 = b.1 && strLt a.2 b.2)

/-- `orb[key][orbType] = vals`. (logreader.cpp:131, 151) -/
def OrbCont.set {α : Type} : OrbCont α → Int × Str → Str → List α → OrbCont α
  | [], key, orbType, vals => [(key, Map.set [] orbType vals)]
  | (k, m) :: orb, key, orbType, vals =>
    if key = k then (k, m.set orbType vals) :: orb
    else if pairLt key k then (key, Map.set [] orbType vals) :: (k, m) :: orb
    else (k, m) :: OrbCont.set orb key orbType vals

/-- logreader.hpp:41-54, the data members. The pointer `S_` is not initialised until an overlap matrix has been read
(`none`). -/
structure LogData (α : Type) where
  homo : Map Int
  orb : OrbCont α
  S : Option (Mat α)
  oe : Map (List α)
  xyz : List (List α)

/-- A newly constructed reader. (logreader.cpp:67-70, logreader.hpp:48-58) -/
def LogData.empty {α : Type} : LogData α := ⟨[], [], none, [], []⟩

variable {α : Type} [Mul α] [Num α] [Zero α]

/-- logreader.hpp:22-24 `getOE`. -/
def LogData.getOE (d : LogData α) (orbType : Str) : Res (List α) :=
  match d.oe.get orbType with
  | some v => .ok v
  | none => .throw .outOfRange

/-- logreader.hpp:25-27 `getHOMOLevel`. -/
def LogData.getHOMOLevel (d : LogData α) (orbType : Str) : Res Int :=
  match d.homo.get orbType with
  | some v => .ok v
  | none => .throw .outOfRange

/-- logreader.hpp:21 `getOverlapMatrix`; using the uninitialised pointer is undefined. -/
def LogData.getOverlapMatrix (d : LogData α) : Res (Mat α) :=
  match d.S with
  | some m => .ok m
  | none => .ub

/-- logreader.hpp:29 `getCoords`. -/
def LogData.getCoords (d : LogData α) : List (List α) := d.xyz

/-- logreader.cpp:97-103 `getBasisFuncCount`. -/
def LogData.getBasisFuncCount (d : LogData α) : List Int := d.orb.map (fun v => (v.2.length : Int))

/-- The end pattern of logreader.cpp:110. -/
def aoEnd : Str := (lit "         Condensed to atoms")

/-- logreader.cpp:139-165, the loop over the further functions of one atom: the reader, `line` and `sectionEnd`. -/
def aoRows (atom : Int) (elemType : Str) : Nat → FR (LogData α) → Str → Str → Str → Res (FR (LogData α) × Str × Bool)
  | 0, _, _, _, _ => .diverge
  | fuel + 1, r, line, elemType2, orbType =>
    if isAlphabetical elemType2 then .ok (r, line, false)
    else do
      let iss2 := (extract (openText line) []).2
      let (orbType, iss2) := extract iss2 orbType
      let orbVals ← restOf (pushBack Num.stod) iss2 []
      let data := { r.data with orb := r.data.orb.set (atom, elemType) orbType orbVals }
      let (line, fid) := getline r.fid line
      let r : FR (LogData α) := { r with fid := fid, data := data }
      let (elemType2, iss3) := extract (openText line) elemType2
      let (elemType2, iss3) := extract iss3 elemType2
      let (elemType2, _) := extract iss3 elemType2
      let elemType2 := trimmed elemType2
      if foundSubStrInStr line aoEnd then .ok (r, line, true)
      else aoRows atom elemType fuel r line elemType2 orbType

/-- logreader.cpp:115-172, the loop over the atoms. -/
def aoAtoms : Nat → Int → FR (LogData α) → Str → Res (FR (LogData α))
  | 0, _, _, _ => .diverge
  | fuel + 1, atom, r, line => do
    let iss := (extract (openText line) []).2
    let (elemType, iss) := extract iss []
    let (elemType, iss) := extract iss elemType
    let (orbType, iss) := extract iss []
    let orbVals ← restOf (pushBack Num.stod) iss []
    let data := { r.data with orb := r.data.orb.set (atom, elemType) orbType orbVals }
    let (line, fid) := getline r.fid line
    let r : FR (LogData α) := { r with fid := fid, data := data }
    let c9 ← vecAt line 9
    let c10 ← vecAt line 10
    let elemType2 := trimmed [c9, c10]
    let (r, line, sectionEnd) ← aoRows atom elemType fuel r line elemType2 orbType
    let sectionEnd := if foundSubStrInStr line aoEnd then true else sectionEnd
    if sectionEnd then .ok r else aoAtoms fuel (atom + 1) r line

/-- logreader.cpp:105-176 `AOFunctionSectionReader`. -/
def aoReader : SectionReader (LogData α) := fun fuel r =>
  let (line, fid) := getline r.fid []
  let (line, fid) := getline fid line
  aoAtoms fuel 1 { r with fid := fid } line

/-- logreader.cpp:193-214, the first block of columns: stream, `line`, `countCoef` and `first_coefs`. -/
def overlapFirst : Nat → Stream → Str → Str → Int → List (List α) → Res (Stream × Str × Int × List (List α))
  | 0, _, _, _, _, _ => .diverge
  | fuel + 1, fid, line, countC, countCoef, firstCoefs => do
    let (line, fid) := getline fid line
    let (countC, iss) := extract (openText line) countC
    let countCint ← stoi countC
    if countCint ≠ countCoef + 1 then .ok (fid, line, countCoef, firstCoefs)
    else do
      let row ← restOf (pushBack fortran) iss []
      overlapFirst fuel fid line countC (countCoef + 1) (firstCoefs ++ [row])

/-- logreader.cpp:220-228, one row of the first block. -/
def overlapSetRow (rowInd : Int) : Int → List α → Mat α → Res (Mat α)
  | _, [], m => .ok m
  | colInd, v :: row, m => do
    let m ← m.setElem2 v (rowInd + 1) colInd
    let m ← if rowInd + 1 ≠ colInd then m.setElem2 v colInd (rowInd + 1) else Res.ok m
    overlapSetRow rowInd (colInd + 1) row m

/-- logreader.cpp:218-229. -/
def overlapSetRows : Int → List (List α) → Mat α → Res (Mat α)
  | _, [], m => .ok m
  | rowInd, row :: rows, m => do
    let m ← overlapSetRow rowInd 1 row m
    overlapSetRows (rowInd + 1) rows m

/-- logreader.cpp:248-260: one coefficient of a later block. -/
def overlapCoef (start sectionCoef : Int) (st : Mat α × Int) (s : Str) : Res (Mat α × Int) := do
  let value ← fortran s
  let m ← st.1.setElem2 value (sectionCoef + 1) (start + st.2)
  let m ← if sectionCoef + 1 ≠ start + st.2 then m.setElem2 value (start + st.2) (sectionCoef + 1) else Res.ok m
  .ok (m, st.2 + 1)

/-- logreader.cpp:241-263, the rows of a later block: `n` rows from `sectionCoef` on. -/
def overlapBlock (start : Int) : Nat → Int → Stream → Str → Mat α → Res (Stream × Str × Mat α)
  | 0, _, fid, line, m => .ok (fid, line, m)
  | n + 1, sectionCoef, fid, line, m => do
    let (line, fid) := getline fid line
    let iss := (extract (openText line) []).2
    let (m, _) ← restOf (overlapCoef start sectionCoef) iss (m, 1)
    overlapBlock start n (sectionCoef + 1) fid line m

/-- logreader.cpp:238-267, `n` later blocks. -/
def overlapBlocks (countCoef : Int) : Nat → Int → Stream → Str → Mat α → Res (Stream × Mat α)
  | 0, _, fid, _, m => .ok (fid, m)
  | n + 1, start, fid, line, m => do
    let (fid, line, m) ← overlapBlock start (countCoef - start).toNat start fid line m
    let (line, fid) := getline fid line
    overlapBlocks countCoef n (start + 5) fid line m

/-- logreader.cpp:178-271 `OverlapSectionReader`. -/
def overlapReader : SectionReader (LogData α) := fun fuel r => do
  let (line, fid) := getline r.fid []
  let (fid, line, countCoef, firstCoefs) ← overlapFirst fuel fid line [] 0 []
  let m ← Mat.mk2 countCoef countCoef
  let m ← overlapSetRows 0 firstCoefs m
  let sectionReads := countCoef.tdiv 5 + (if countCoef.tmod 5 > 0 then 1 else 0)
  let (fid, m) ← overlapBlocks countCoef (sectionReads - 1).toNat 5 fid line m
  .ok { r with fid := fid, data := { r.data with S := some m } }

/-- logreader.cpp:293-296: the tokens from the fifth on. -/
def pushEnergies (orbType : Str) (occFound : Bool) : List Str → LogData α → LogData α
  | [], d => d
  | s :: v, d =>
    let oe := d.oe.set orbType ((d.oe.get orbType).getD [] ++ [Num.atof s])
    let homo := if occFound then d.homo.set orbType ((d.homo.get orbType).getD 0 + 1) else d.homo
    pushEnergies orbType occFound v { d with oe := oe, homo := homo }

/-- logreader.cpp:280-301, the loop of `ReadOrbEnergies`. -/
def energiesLoop (orbType : Str) : Nat → FR (LogData α) → Str → Res (FR (LogData α))
  | 0, _, _ => .diverge
  | fuel + 1, r, line =>
    let (line, fid) := getline r.fid line
    let r : FR (LogData α) := { r with fid := fid }
    if fid.fail then .ok r
    else
      let occFound := foundSubStrInStr line ((lit " ") ++ orbType ++ (lit "  occ. eigenvalues -- "))
      let virtFound := foundSubStrInStr line ((lit " ") ++ orbType ++ (lit " virt. eigenvalues -- "))
      if occFound || virtFound then do
        let v ← splitStEnergies line
        let data := pushEnergies orbType occFound (v.drop 4) r.data
        let (pos, fid) := tellg r.fid
        energiesLoop orbType fuel { r with fid := fid, pos := pos, data := data } line
      else .ok r

/-- logreader.cpp:273-305 `ReadOrbEnergies`. -/
def readOrbEnergies (orbType : Str) (fuel : Nat) (r : FR (LogData α)) : Res (FR (LogData α)) := do
  let data := { r.data with homo := r.data.homo.set orbType 0, oe := r.data.oe.set orbType [] }
  let r ← energiesLoop orbType fuel { r with data := data } []
  .ok { r with fid := seekg r.fid r.pos }

/-- logreader.cpp:307-312 `OrbitalEnergiesAlphaSectionReader`. -/
def alphaReader : SectionReader (LogData α) := fun fuel r =>
  readOrbEnergies (lit "Alpha") fuel { r with fid := seekg r.fid r.pos }

/-- logreader.cpp:314-319 `OrbitalEnergiesBetaSectionReader`. -/
def betaReader : SectionReader (LogData α) := fun fuel r =>
  readOrbEnergies (lit "Beta") fuel { r with fid := seekg r.fid r.pos }

/-- The end pattern of logreader.cpp:331-333: 69 hyphens. -/
def coordEnd : Str := List.replicate 69 '-'

/-- logreader.cpp:341-347, the loop over the rows of the table. -/
def coordLoop : Nat → Stream → Str → List α → List α → List α → Res (Stream × List α × List α × List α)
  | 0, _, _, _, _, _ => .diverge
  | fuel + 1, fid, line, X, Y, Z =>
    if foundSubStrInStr line coordEnd then .ok (fid, X, Y, Z)
    else do
      let v := splitSt line
      let x ← vecAt v 3
      let x ← Num.stod x
      let y ← vecAt v 4
      let y ← Num.stod y
      let z ← vecAt v 5
      let z ← Num.stod z
      let (line, fid) := getline fid line
      coordLoop fuel fid line (X ++ [x]) (Y ++ [y]) (Z ++ [z])

/-- logreader.cpp:321-353 `CoordSectionReader`. (When it throws, the state of the reader is not kept.) -/
def coordReader : SectionReader (LogData α) := fun fuel r => do
  let (line, fid) := getline r.fid []
  let (line, fid) := getline fid line
  let (line, fid) := getline fid line
  let (fid, X, Y, Z) ← coordLoop fuel fid line [] [] []
  .ok { r with fid := fid, data := { r.data with xyz := [X, Y, Z] } }

/-- logreader.cpp:72-88 `registerSections_` (before the check): the maps in iteration order. -/
def logSections : Sections (LogData α) where
  headers := [
    ((lit "AOFunction"), [(lit "     Gross orbital populations:")]),
    ((lit "Coord"), [(lit "Center     Atomic      Atomic"), (lit "Center     Atomic     Atomic")]),
    ((lit "OEAlpha"), [(lit " Alpha  occ. eigenvalues --")]),
    ((lit "OEBeta"), [(lit "  Beta  occ. eigenvalues --")]),
    ((lit "Overlap"), [(lit " *** Overlap ***")])]
  readers := [
    ((lit "AOFunction"), aoReader),
    ((lit "Coord"), coordReader),
    ((lit "OEAlpha"), alphaReader),
    ((lit "OEBeta"), betaReader),
    ((lit "Overlap"), overlapReader)]

/-- logreader.cpp:67-70 the constructor, with `validFileName_` 90-95. -/
def logReaderNew (fileName : Str) : Res Unit := do
  let ext ← fileExt fileName
  if ext ≠ (lit ".log") then .throw .invalidArgument
  else checkSections (logSections : Sections (LogData α))

/-- `LogReader lr(fileName); lr.read();`: what the reader holds afterwards. (main.cpp:60-78) -/
def readLog (fs : Str → Option Str) (fuel : Nat) (fileName : Str) : Res (LogData α) := do
  let _ ← logReaderNew (α := α) fileName
  read logSections fs fileName fuel LogData.empty

end Verif.Readers
