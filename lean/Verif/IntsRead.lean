import Verif.IntsJob
/-
The two file readers with every `int` operation checked (see `Verif.Ints`): an operation whose result is no 32-bit `int` is undefined
behaviour. (`Verif.LogReader` and `Verif.PunReader` use mathematical integers; `Verif.Props.IntsRead` says when the two agree.) What has no
`int` in it is taken over from there: the coordinate table, the splitting of lines, `rowLoop`'s use of `size_t`.
-/
namespace Verif.Ints
open QC Readers Strings
variable {α : Type} [Mul α] [Num α] [Zero α]

/-! ### the log file -/

/-- logreader.cpp:115-172, the loop over the atoms (see `Readers.aoAtoms`): `++atom_num` is checked. -/
def aoAtoms : Nat → Int → FR (LogData α) → Str → Res (FR (LogData α))
  | 0, _, _, _ => .diverge
  | fuel + 1, atom, r, line => do
    let iss := (extract (openText line) []).2
    let (elemType, iss) := extract iss []
    let (elemType, iss) := extract iss elemType
    let (orbType, iss) := extract iss []
    let orbVals ← restOf (pushBack Num.stod) iss []
    let data := { r.data with orb := r.data.orb.set (atom, elemType) orbType orbVals }
    let (line, fid) := getline r.fid line
    let r : FR (LogData α) := { r with fid := fid, data := data }
    let c9 ← vecAt line 9
    let c10 ← vecAt line 10
    let elemType2 := trimmed [c9, c10]
    let (r, line, sectionEnd) ← aoRows atom elemType fuel r line elemType2 orbType
    let atom ← add atom 1
    let sectionEnd := if foundSubStrInStr line aoEnd then true else sectionEnd
    if sectionEnd then .ok r else aoAtoms fuel atom r line

/-- logreader.cpp:105-176 `AOFunctionSectionReader`. -/
def aoReader : SectionReader (LogData α) := fun fuel r =>
  let (line, fid) := getline r.fid []
  let (line, fid) := getline fid line
  aoAtoms fuel 1 { r with fid := fid } line

/-- logreader.cpp:193-214, the first block of columns (see `Readers.overlapFirst`): `countCoef + 1` and `++countCoef` are checked. -/
def overlapFirst : Nat → Stream → Str → Str → Int → List (List α) → Res (Stream × Str × Int × List (List α))
  | 0, _, _, _, _, _ => .diverge
  | fuel + 1, fid, line, countC, countCoef, firstCoefs => do
    let (line, fid) := getline fid line
    let (countC, iss) := extract (openText line) countC
    let countCint ← stoi countC
    let next ← add countCoef 1
    if countCint ≠ next then .ok (fid, line, countCoef, firstCoefs)
    else do
      let countCoef ← add countCoef 1
      let row ← restOf (pushBack fortran) iss []
      overlapFirst fuel fid line countC countCoef (firstCoefs ++ [row])

/-- logreader.cpp:220-228, one row of the first block: `row_ind + 1` and `col_ind` (of type `size_t`) must be `int`s when they are passed to
`set_elem`. -/
def overlapSetRow (rowInd : Int) : Int → List α → Mat α → Res (Mat α)
  | _, [], m => .ok m
  | colInd, v :: row, m => do
    let i ← fit (rowInd + 1)
    let j ← fit colInd
    let m ← setElem2 m v i j
    let m ← if rowInd + 1 ≠ colInd then setElem2 m v j i else Res.ok m
    overlapSetRow rowInd (colInd + 1) row m

/-- logreader.cpp:218-229. -/
def overlapSetRows : Int → List (List α) → Mat α → Res (Mat α)
  | _, [], m => .ok m
  | rowInd, row :: rows, m => do
    let m ← overlapSetRow rowInd 1 row m
    overlapSetRows (rowInd + 1) rows m

/-- logreader.cpp:248-260: one coefficient of a later block. -/
def overlapCoef (start sectionCoef : Int) (st : Mat α × Int) (s : Str) : Res (Mat α × Int) := do
  let value ← fortran s
  let i ← add sectionCoef 1
  let j ← add start st.2
  let m ← setElem2 st.1 value i j
  let m ← if i ≠ j then setElem2 m value j i else Res.ok m
  let n ← add st.2 1
  .ok (m, n)

/-- logreader.cpp:241-263, the rows of a later block: `n` rows from `sectionCoef` on. -/
def overlapBlock (start : Int) : Nat → Int → Stream → Str → Mat α → Res (Stream × Str × Mat α)
  | 0, _, fid, line, m => .ok (fid, line, m)
  | n + 1, sectionCoef, fid, line, m => do
    let (line, fid) := getline fid line
    let iss := (extract (openText line) []).2
    let (m, _) ← restOf (overlapCoef start sectionCoef) iss (m, 1)
    let sectionCoef ← add sectionCoef 1
    overlapBlock start n sectionCoef fid line m

/-- logreader.cpp:238-267, `n` later blocks: `++section` and `currentSectionStart += 5` are checked. -/
def overlapBlocks (countCoef : Int) : Nat → Int → Int → Stream → Str → Mat α → Res (Stream × Mat α)
  | 0, _, _, fid, _, m => .ok (fid, m)
  | n + 1, sectionNo, start, fid, line, m => do
    let (fid, line, m) ← overlapBlock start (countCoef - start).toNat start fid line m
    let sectionNo ← add sectionNo 1
    let start ← add start 5
    let (line, fid) := getline fid line
    overlapBlocks countCoef n sectionNo start fid line m

/-- logreader.cpp:231-234: `countCoef / 5`, and one more if something is left. -/
def sections (countCoef : Int) : Res Int := do
  let n ← fit (countCoef.tdiv 5)
  if countCoef.tmod 5 > 0 then add n 1 else .ok n

/-- logreader.cpp:178-271 `OverlapSectionReader`. -/
def overlapReader : SectionReader (LogData α) := fun fuel r => do
  let (line, fid) := getline r.fid []
  let (fid, line, countCoef, firstCoefs) ← overlapFirst fuel fid line [] 0 []
  let m ← mk2 countCoef countCoef
  let m ← overlapSetRows 0 firstCoefs m
  let sectionReads ← sections countCoef
  let (fid, m) ← overlapBlocks countCoef (sectionReads - 1).toNat 2 5 fid line m
  .ok { r with fid := fid, data := { r.data with S := some m } }

/-- logreader.cpp:293-296: the tokens from the fifth on; `homoLevel[orb_type]++` is checked. -/
def pushEnergies (orbType : Str) (occFound : Bool) : List Str → LogData α → Res (LogData α)
  | [], d => .ok d
  | s :: v, d => do
    let oe := d.oe.set orbType ((d.oe.get orbType).getD [] ++ [Num.atof s])
    let homo ← if occFound then do
        let n ← add ((d.homo.get orbType).getD 0) 1
        Res.ok (d.homo.set orbType n)
      else Res.ok d.homo
    pushEnergies orbType occFound v { d with oe := oe, homo := homo }

/-- logreader.cpp:280-301, the loop of `ReadOrbEnergies`. -/
def energiesLoop (orbType : Str) : Nat → FR (LogData α) → Str → Res (FR (LogData α))
  | 0, _, _ => .diverge
  | fuel + 1, r, line =>
    let (line, fid) := getline r.fid line
    let r : FR (LogData α) := { r with fid := fid }
    if fid.fail then .ok r
    else
      let occFound := foundSubStrInStr line ((lit " ") ++ orbType ++ (lit "  occ. eigenvalues -- "))
      let virtFound := foundSubStrInStr line ((lit " ") ++ orbType ++ (lit " virt. eigenvalues -- "))
      if occFound || virtFound then do
        let v ← splitStEnergies line
        let data ← pushEnergies orbType occFound (v.drop 4) r.data
        let (pos, fid) := tellg r.fid
        energiesLoop orbType fuel { r with fid := fid, pos := pos, data := data } line
      else .ok r

/-- logreader.cpp:273-305 `ReadOrbEnergies`. -/
def readOrbEnergies (orbType : Str) (fuel : Nat) (r : FR (LogData α)) : Res (FR (LogData α)) := do
  let data := { r.data with homo := r.data.homo.set orbType 0, oe := r.data.oe.set orbType [] }
  let r ← energiesLoop orbType fuel { r with data := data } []
  .ok { r with fid := seekg r.fid r.pos }

/-- logreader.cpp:307-312 `OrbitalEnergiesAlphaSectionReader`. -/
def alphaReader : SectionReader (LogData α) := fun fuel r =>
  readOrbEnergies (lit "Alpha") fuel { r with fid := seekg r.fid r.pos }

/-- logreader.cpp:314-319 `OrbitalEnergiesBetaSectionReader`. -/
def betaReader : SectionReader (LogData α) := fun fuel r =>
  readOrbEnergies (lit "Beta") fuel { r with fid := seekg r.fid r.pos }

/-- logreader.cpp:72-88 `registerSections_`: the headers and the checked readers. -/
def logSections : Sections (LogData α) where
  headers := (Readers.logSections (α := α)).headers
  readers := [
    ((lit "AOFunction"), aoReader),
    ((lit "Coord"), coordReader),
    ((lit "OEAlpha"), alphaReader),
    ((lit "OEBeta"), betaReader),
    ((lit "Overlap"), overlapReader)]

/-- `LogReader lr(fileName); lr.read();`: what the reader holds afterwards. (main.cpp:60-78; logreader.cpp:67-70, 90-95) -/
def readLog (fs : Str → Option Str) (fuel : Nat) (fileName : Str) : Res (LogData α) := do
  let _ ← logReaderNew (α := α) fileName
  read logSections fs fileName fuel LogData.empty

/-! ### the pun file -/

omit [Zero α] in
/-- punreader.cpp:51-60, the loop of `readGausCoefLine`: `12 + indent` and `indent += 15` are checked. -/
def gausLoop (line : Str) : Nat → Int → List α → Res (List α)
  | 0, _, _ => .diverge
  | fuel + 1, indent, values =>
    if toSize ((line.length : Int) - indent) ≥ 15 then do
      let p ← add 0 indent
      let str ← substr line p.toNat 11
      let d ← Num.stod (trimmed str)
      let p ← add 12 indent
      let str ← substr line p.toNat 3
      let d2 ← Num.stod (trimmed str)
      let indent ← add indent 15
      gausLoop line fuel indent (values ++ [d * Num.pow10 d2])
    else .ok values

/-- punreader.cpp:47-62 `readGausCoefLine`. -/
def readGausCoefLine (line : Str) : Res (List α) := gausLoop line (line.length + 1) 0 []

/-- punreader.cpp:79-88, the lines of one orbital (see `Readers.rowLoop`). -/
def rowLoop (firstRowSet : Bool) (count : Nat) : Nat → Stream → Str → List α → Res (Stream × Str × List α)
  | 0, _, _, _ => .diverge
  | fuel + 1, fid, line, row =>
    if foundSubStrInStr line moPattern then .ok (fid, line, row)
    else if firstRowSet && row.length ≥ count then .ok (fid, line, row)
    else do
      let coef ← readGausCoefLine line
      let (line, fid) := getline fid line
      rowLoop firstRowSet count fuel fid line (row ++ coef)

/-- punreader.cpp:74-94, the loop over the orbitals (see `Readers.coefLoop`). -/
def coefLoop (orbType : Str) : Nat → Bool → Nat → Stream → List (List α) → Res (Stream × List (List α))
  | 0, _, _, _, _ => .diverge
  | fuel + 1, firstRowSet, count, fid, vVec => do
    let (line, fid) := getline fid []
    let (fid, line, row) ← rowLoop firstRowSet count fuel fid line []
    let vVec := vVec ++ [row]
    if !foundSubStrInStr line orbType then .ok (fid, vVec)
    else coefLoop orbType fuel true row.length fid vVec

/-- punreader.cpp:64-99 `ReadCoef`, called for the spin by 101-109; the matrix is made with checked `int`s. -/
def readCoef (orbType : Str) : SectionReader (PunData α) := fun fuel r => do
  let (fid, vVec) ← coefLoop orbType fuel false 0 r.fid []
  let m ← ofVecVec vVec
  .ok { r with fid := fid, data := r.data.set orbType m }

/-- punreader.cpp:22-30 `registerSections_`: the headers and the checked readers. -/
def punSections : Sections (PunData α) where
  headers := (Readers.punSections (α := α)).headers
  readers := [((lit "CoefAlpha"), readCoef (lit "Alpha")), ((lit "CoefBeta"), readCoef (lit "Beta"))]

/-- `PunReader pr(fileName); pr.read();`: what the reader holds afterwards. (main.cpp:52-78; punreader.cpp:17-20, 40-45) -/
def readPun (fs : Str → Option Str) (fuel : Nat) (fileName : Str) : Res (PunData α) := do
  let _ ← punReaderNew (α := α) fileName
  read punSections fs fileName fuel []

/-! ### main -/

/-- main.cpp:52-78: the six readers. -/
def readFiles (files : Str → Option Str) (fuel : Nat) (par : Params.Params) :
    Res ((PunData α × PunData α × PunData α) × (LogData α × LogData α × LogData α)) := do
  let prP ← readPun files fuel par.punP
  let pr1 ← readPun files fuel par.pun1
  let pr2 ← readPun files fuel par.pun2
  let lrP ← readLog files fuel par.logP
  let lr1 ← readLog files fuel par.log1
  let lr2 ← readLog files fuel par.log2
  .ok ((prP, pr1, pr2), (lrP, lr1, lr2))

/-- main.cpp:29-175 `main` (see `Verif.calcJRun`), every `int` operation checked, also while the files are read. (The argument parser computes
with `size_t` only; the `int`s it reads it checks itself, with `stoi`.) -/
def wholeRun {β : Type} [One α] [Add α] [Sub α] [Div α] [DecidableEq β] (D : Type) [Args.Dbl D] (tos : α → β)
    (files : Str → Option Str) (fuel : Nat) (args : List Str) : Res (Params.Params × Report α) := do
  let p ← Args.prepareParser (D := D)
  let p ← Args.parse (fsOf files) p args
  let par ← Args.prepareParameters p
  let ((prP, pr1, pr2), (lrP, lr1, lr2)) ← readFiles files fuel par
  let r ← couplingReport tos par prP pr1 pr2 lrP lr1 lr2
  .ok (par, r)

end Verif.Ints
