import Verif.Ints
import Verif.Main
/-
The rest of calc_J's calculation with every `int` operation checked (see `Verif.Ints`): the constructors of matrices from vectors,
the search for matching atoms, splitting, exchanging and merging blocks, the constructor of the transfer complex, `unscramble`, and the
part of `main` that follows the reading of the files.
-/
namespace Verif.Ints
open QC Readers
variable {α : Type}

/-! ### matrices from vectors -/

/-- matrix.cpp:257-260: `elem[(r - 1) * cols + c - 1] = val; ++r;` with `cols = c = 1`. -/
def ofVecLoop (b : Buf α) (r : Int) : List α → Res (Buf α)
  | [] => .ok b
  | v :: vs => do
    let x ← sub r 1
    let x ← mul x 1
    let x ← add x 1
    let x ← sub x 1
    let b ← b.write x v
    let r ← add r 1
    ofVecLoop b r vs

/-- matrix.cpp:249-261 `Matrix(vector<double>)`; `rows = v_data.size()` must be an `int`. -/
def ofVec (v : List α) : Res (Mat α) := do
  let rows ← fit v.length
  let n ← mul rows 1
  let b ← ofVecLoop (Buf.alloc n) 1 v
  .ok { rows := rows, cols := 1, shel := 1, elem := b }

/-- matrix.cpp:292-295: `elem[(r - 1) * cols + c - 1] = val; ++c;`. -/
def ofVecVecInner (cols r : Int) (b : Buf α) (c : Int) : List α → Res (Buf α)
  | [] => .ok b
  | v :: vs => do
    let x ← sub r 1
    let x ← mul x cols
    let x ← add x c
    let x ← sub x 1
    let b ← b.write x v
    let c ← add c 1
    ofVecVecInner cols r b c vs

/-- matrix.cpp:285-297, the outer loop; `static_cast<int>(v.size())`. -/
def ofVecVecLoop (cols : Int) (b : Buf α) (r : Int) : List (List α) → Res (Buf α)
  | [] => .ok b
  | v :: vs => do
    let n ← fit v.length
    if n ≠ cols then .throw .invalidArgument
    else do
      let b ← ofVecVecInner cols r b 1 v
      let r ← add r 1
      ofVecVecLoop cols b r vs

/-- matrix.cpp:277-298 `Matrix(vector<vector<double>>)`. -/
def ofVecVec (vv : List (List α)) : Res (Mat α) := do
  let rows ← fit vv.length
  let v0 ← vecAt vv 0
  let cols ← fit v0.length
  let n ← mul rows cols
  let b ← ofVecVecLoop cols (Buf.alloc n) 1 vv
  .ok { rows := rows, cols := cols, shel := 1, elem := b }

/-! ### matching -/

/-- matrix.cpp:879-886, the innermost loop over `j = lo .. hi` with its `break`: `++j` after each pass that does not leave. -/
def allMatch {β : Type} [DecidableEq β] (tos : α → β) (f g : Int → Res α) : List Int → Res Bool
  | [] => .ok true
  | j :: js => do
    let a ← f j
    let b ← g j
    if tos a ≠ tos b then .ok false
    else do
      let _ ← add j 1
      allMatch tos f g js

/-- matrix.cpp:865-891 `matchCol`. -/
def matchCol {β : Type} [DecidableEq β] (tos : α → β) (m mat : Mat α) : Res (List Int) :=
  if mat.shel ≠ 1 ∨ m.shel ≠ 1 then .exit 1
  else if mat.rows ≠ m.rows then .throw .invalidArgument
  else
    loop 1 m.cols (List.replicate m.cols.toNat (-1)) fun vec i =>
      loop 1 mat.cols vec fun vec ii => do
        let ok ← allMatch tos (fun j => getElem2 m j i) (fun j => getElem2 mat j ii) (irange 1 m.rows)
        if ok then do
          let p ← sub i 1
          Mat.vecSet vec p ii
        else .ok vec

/-! ### splitting, exchanging, merging -/

/-- qc_functions.cpp:335-340, 343-348, 356-361: exchange positions `p.first` and `p.second`. -/
def swapEntry {β : Type} (l : List β) (p : Int × Int) : Res (List β) :=
  if p.1 ≠ p.2 then do
    let i ← sub p.1 1
    let temp ← listGet l i
    let j ← sub p.2 1
    let v ← listGet l j
    let l ← listSet l i v
    listSet l j temp
  else .ok l

/-- qc_functions.cpp:352-364 `updateSwapLists(monAmatch, list)`. -/
def updateSwapLists1 {β : Type} (A : List (Int × Int)) (l : List β) : Res (List β) := A.foldlM swapEntry l

/-- qc_functions.cpp:330-351 `updateSwapLists(monBmatch, monAmatch, list)`. -/
def updateSwapLists2 {β : Type} (B A : List (Int × Int)) (l : List β) : Res (List β) := do
  let l ← updateSwapLists1 B l
  updateSwapLists1 A l

/-- qc_functions.cpp:147-157, the body of the "Columns" loop for one block. -/
def splitColsStep [Zero α] (mat : Mat α) (st : List (Mat α) × Int) (sz : Int) : Res (List (Mat α) × Int) := do
  let new ← mk2 mat.rows sz
  let new ← loop 1 mat.rows new fun new k =>
    loop 1 sz new fun new j => do
      let c ← add st.2 j
      let v ← getElem2 mat k c
      setElem2 new v k j
  let col ← add st.2 sz
  .ok (st.1 ++ [new], col)

/-- qc_functions.cpp:160-170, the body of the "Rows" loop for one block. -/
def splitRowsStep [Zero α] (mat : Mat α) (st : List (Mat α) × Int) (sz : Int) : Res (List (Mat α) × Int) := do
  let new ← mk2 sz mat.cols
  let new ← loop 1 mat.cols new fun new k =>
    loop 1 sz new fun new j => do
      let r ← add st.2 j
      let v ← getElem2 mat r k
      setElem2 new v j k
  let row ← add st.2 sz
  .ok (st.1 ++ [new], row)

/-- qc_functions.cpp:139-180 `splitMatrixIntoList`: `num_sub_matrices` is an `int`, and so is the number of the block. -/
def splitMatrixIntoList [Zero α] (sizes : List Int) (mat : Mat α) (dir : Str) : Res (List (Mat α)) := do
  let num ← fit sizes.length
  if dir = "Columns".toList then do
    let st ← sizes.foldlM (splitColsStep mat) ([], 0)
    let _ ← add num 1
    .ok st.1
  else if dir = "Rows".toList then do
    let st ← sizes.foldlM (splitRowsStep mat) ([], 0)
    let _ ← add num 1
    .ok st.1
  else .throw .invalidArgument

/-- qc_functions.cpp:372-386, the body of the "Columns" loop for one block; the state is `(full_matrix, col)`. -/
def mergeColsStep (rows cols : Int) (st : Mat α × Int) (m : Mat α) : Res (Mat α × Int) :=
  if st.2 > cols then .throw .runtimeError
  else do
    let (full, _) ← loop 1 m.rows (st.1, (1 : Int)) fun (full, row) i =>
      if row > rows then .throw .runtimeError
      else do
        let full ← loop 1 m.cols full fun full j => do
          let v ← getElem2 m i j
          let c ← add j st.2
          setElem2 full v row c
        let row ← add row 1
        .ok (full, row)
    let col ← add st.2 m.cols
    .ok (full, col)

/-- qc_functions.cpp:389-403, the body of the "Rows" loop for one block; the state is `(full_matrix, row)`. -/
def mergeRowsStep (rows cols : Int) (st : Mat α × Int) (m : Mat α) : Res (Mat α × Int) :=
  if st.2 > rows then .throw .runtimeError
  else do
    let (full, _) ← loop 1 m.cols (st.1, (1 : Int)) fun (full, col) j =>
      if col > cols then .throw .runtimeError
      else do
        let full ← loop 1 m.rows full fun full i => do
          let v ← getElem2 m i j
          let r ← add st.2 i
          setElem2 full v r col
        let col ← add col 1
        .ok (full, col)
    let row ← add st.2 m.rows
    .ok (full, row)

/-- qc_functions.cpp:366-414 `mergeListOfMatrices`. -/
def mergeListOfMatrices [Zero α] (l : List (Mat α)) (rows cols : Int) (dir : Str) : Res (Mat α) := do
  let full ← mk2 rows cols
  if dir = "Columns".toList then do
    let st ← l.foldlM (mergeColsStep rows cols) (full, 0)
    .ok st.1
  else if dir = "Rows".toList then do
    let st ← l.foldlM (mergeRowsStep rows cols) (full, 0)
    .ok st.1
  else .throw .invalidArgument

/-! ### unscrambling -/

/-- qc_functions.cpp:435-444, 471-475, 494-503, 516-525, 546-550, 562-566: the position `i` (plus `monAmatch.size()`) must be an `int`. -/
def pairUp (k : Int) : List Int → Res (List (Int × Int))
  | [] => .ok []
  | m :: ms => do
    let p ← fit (k + 1)
    let rest ← pairUp (k + 1) ms
    .ok ((p, m) :: rest)

/-- qc_functions.cpp:417-451 `unscramble_Coef(matchDimerA, matchDimerB, basisFuncP, dimerCoef)`. -/
def unscrambleCoef2 [Zero α] (matchA matchB basis : List Int) (coef : Mat α) : Res (Mat α) := do
  let l ← splitMatrixIntoList basis coef "Columns".toList
  let monA ← pairUp 0 matchA
  let monB ← pairUp monA.length matchB
  let (monB, monA) ← refreshSwapOrder2 monB monA
  let l ← updateSwapLists2 monB monA l
  mergeListOfMatrices l coef.rows coef.cols "Columns".toList

/-- qc_functions.cpp:454-482 `unscramble_Coef(matchDimerB, basisFuncB, Coef)`. -/
def unscrambleCoef1 [Zero α] (matchB basis : List Int) (coef : Mat α) : Res (Mat α) := do
  let l ← splitMatrixIntoList basis coef "Columns".toList
  let monB ← pairUp 0 matchB
  let monB ← refreshSwapOrder1 monB
  let l ← updateSwapLists1 monB l
  mergeListOfMatrices l coef.rows coef.cols "Columns".toList

/-- qc_functions.cpp:486-534 `unscramble_S(matchDimerA, matchDimerB, basisFuncP, S)`. -/
def unscrambleS2 [Zero α] (matchA matchB basis : List Int) (S : Mat α) : Res (Mat α) := do
  let S ← unscrambleCoef2 matchA matchB basis S
  let l ← splitMatrixIntoList basis S "Rows".toList
  let monA ← pairUp 0 matchA
  let monB ← pairUp monA.length matchB
  let (monB, monA) ← refreshSwapOrder2 monB monA
  let l ← updateSwapLists2 monB monA l
  mergeListOfMatrices l S.rows S.cols "Rows".toList

/-- qc_functions.cpp:539-575 `unscramble_S(matchDimerA, basisFuncP, S)`. -/
def unscrambleS1 [Zero α] (matchA basis : List Int) (S : Mat α) : Res (Mat α) := do
  let S ← unscrambleCoef1 matchA basis S
  let l ← splitMatrixIntoList basis S "Rows".toList
  let monA ← pairUp 0 matchA
  let monA ← refreshSwapOrder1 monA
  let l ← updateSwapLists1 monA l
  mergeListOfMatrices l S.rows S.cols "Rows".toList

/-- qc_functions.cpp:581-624, the constructor: `total_cols` is a sum of two `int`s. -/
def newComplex (coef1 coef2 coefP : Mat α) (orbs1 orbs2 : Int × Int) (S oe : Mat α) (cp : Bool) :
    Res (TransferComplex α) :=
  if S.cols ≠ coefP.cols then .throw .invalidArgument
  else
    let made : TransferComplex α := ⟨coef1, coef2, coefP, orbs1, orbs2, S, oe, false, cp⟩
    if cp then
      if coef1.cols ≠ coefP.cols then .throw .invalidArgument
      else if coef2.cols ≠ coefP.cols then .throw .invalidArgument
      else .ok made
    else do
      let total ← add coef1.cols coef2.cols
      if total > coefP.cols then .throw .invalidArgument
      else .ok made

/-- qc_functions.cpp:626-674 `TransferComplex::unscramble`. -/
def unscramble [Zero α] {β : Type} [DecidableEq β] (tos : α → β) (T : TransferComplex α)
    (coord1 coord2 coordP : Mat α) (basisP basis2 : List Int) : Res (TransferComplex α) :=
  if T.cp then do
    let match12 ← matchCol tos coord1 coord2
    let coef2 ← unscrambleCoef1 match12 basis2 T.coef2
    let match1P ← matchCol tos coord1 coordP
    let coefP ← unscrambleCoef1 match1P basisP T.coefP
    let S ← unscrambleS1 match1P basisP T.S
    .ok { T with unscrambled := true, coef2 := coef2, coefP := coefP, S := S }
  else do
    let match1P ← matchCol tos coord1 coordP
    let match2P ← matchCol tos coord2 coordP
    let coefP ← unscrambleCoef2 match1P match2P basisP T.coefP
    let S ← unscrambleS2 match1P match2P basisP T.S
    .ok { T with unscrambled := true, coefP := coefP, S := S }

/-! ### main -/

/-- main.cpp:80-171, from the parameters and what the six readers hold to the numbers `TC.calcJ` prints. -/
def couplingReport {β : Type} [Zero α] [One α] [Add α] [Sub α] [Mul α] [Div α] [DecidableEq β] (tos : α → β) (par : Params.Params)
    (prP pr1 pr2 : PunData α) (lrP lr1 lr2 : LogData α) : Res (Report α) := do
  let S ← lrP.getOverlapMatrix
  let coefP ← prP.getCoefsMatrix par.spinP
  let vecOEP ← lrP.getOE par.spinP
  let oeP ← ofVec vecOEP
  let homo1 ← lr1.getHOMOLevel par.spin1
  let coef1 ← pr1.getCoefsMatrix par.spin1
  let vecOE1 ← lr1.getOE par.spin1
  let oe1 ← ofVec vecOE1
  let homo2 ← lr2.getHOMOLevel par.spin2
  let coef2 ← pr2.getCoefsMatrix par.spin2
  let vecOE2 ← lr2.getOE par.spin2
  let oe2 ← ofVec vecOE2
  let coordP ← ofVecVec lrP.getCoords
  let coord1 ← ofVecVec lr1.getCoords
  let coord2 ← ofVecVec lr2.getCoords
  let basisP := lrP.getBasisFuncCount
  let basis1 := lr1.getBasisFuncCount
  let basis2 := lr2.getBasisFuncCount
  let T ← newComplex coef1 coef2 coefP (oe1.rows, homo1) (oe2.rows, homo2) S oeP par.counterPoise
  let T ← if basis1.length ≠ 0 ∧ basis2.length ≠ 0 ∧ basisP.length ≠ 0 then
      unscramble tos T coord1 coord2 coordP basisP basis2
    else Res.ok T
  let orbitaltypes : Map Str := Map.set (Map.set [] (lit "mon1") par.orbType1) (lit "mon2") par.orbType2
  let orbitalnums : Map Int := Map.set (Map.set [] (lit "mon1") par.orbNum1) (lit "mon2") par.orbNum2
  calcJReport T orbitaltypes.get orbitalnums.get

/-- main.cpp:29-175 `main` (see `Verif.calcJRun`): after the six files are read, every `int` operation is checked. -/
def calcJRun {β : Type} [Mul α] [Num α] [Zero α] [One α] [Add α] [Sub α] [Div α] [DecidableEq β] (D : Type) [Args.Dbl D] (tos : α → β)
    (files : Str → Option Str) (fuel : Nat) (args : List Str) : Res (Params.Params × Report α) := do
  let p ← Args.prepareParser (D := D)
  let p ← Args.parse (fsOf files) p args
  let par ← Args.prepareParameters p
  let ((prP, pr1, pr2), (lrP, lr1, lr2)) ← readFiles files fuel par
  let r ← couplingReport tos par prP pr1 pr2 lrP lr1 lr2
  .ok (par, r)

end Verif.Ints
