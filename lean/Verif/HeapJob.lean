import Verif.Heap
import Verif.Main
/-
The calculation of calc_J (main.cpp:80-171, qc_functions.cpp:60-180, 366-763) on `Matrix` objects and the heap buffers they point to:
what `Verif.QC` and `Verif.Main` model on values is here written with object numbers (pointers and references to `Matrix`), every
constructor, copy constructor, `operator=` and `set_elem` acting on the shared heap of `Verif.Heap`.

Objects that went out of scope stay in the list: `Matrix` has no destructor (matrix.hpp:9-98), so nothing happens to their buffers.
A local `Matrix` returned by value (`return mat2;`, matrix.cpp:38, 46, 68, 118, 928, 944) is one object: whether or not the copy is elided,
one name of the buffer is left.
-/
namespace Verif.Heap
open Strings Readers

/-- A computation on objects and heap. (matrix.hpp:9-14) -/
abbrev HM (α : Type) := StateT (St α) Res

section
variable {α : Type} {β : Type}

/-- An outcome that does not depend on the heap. (qc_functions.cpp:60-763) -/
def lift (x : Res β) : HM α β := fun st => x >>= fun b => .ok (b, st)

/-- The matrix that object `i` is now. (matrix.cpp:455-462, 512-526: the `const` member functions) -/
def look (i : Nat) : HM α (Mat α) := fun st => st.view i >>= fun m => .ok (m, st)

/-- A counting loop that carries `s`. (qc_functions.cpp:147-170, 372-404) -/
def loop {σ : Type} (lo hi : Int) (s : σ) (body : σ → Int → HM α σ) : HM α σ :=
  fun st => forRange lo hi (s, st) fun p k => body p.1 k p.2

variable [Zero α] [Add α] [Mul α]

/-- A statement that makes a new object: its number. (matrix.cpp:17-364, 893-946) -/
def make (op : Op α) : HM α Nat := fun st => step st op >>= fun st' => .ok (st.objs.length, st')

/-- A statement that changes objects. (matrix.cpp:366-470) -/
def act (op : Op α) : HM α Unit := fun st => step st op >>= fun st' => .ok ((), st')

/-! ### splitting and merging -/

/-- qc_functions.cpp:147-157, one round of the "Columns" loop: `new Matrix(…)`, then `mat_new->set_elem(mat->get_elem(k, col + j), k, j)`. -/
def splitCols (mat : Nat) (s : List Nat × Int) (sz : Int) : HM α (List Nat × Int) := do
  let m ← look mat
  let new ← make (.construct (.mk2 m.rows sz))
  loop 1 m.rows () fun _ k => loop 1 sz () fun _ j => do
    let m ← look mat
    let v ← lift (m.getElem2 k (s.2 + j))
    act (.inPlace new (.setElem2 v k j))
  pure (s.1 ++ [new], s.2 + sz)

/-- qc_functions.cpp:160-170, one round of the "Rows" loop. -/
def splitRows (mat : Nat) (s : List Nat × Int) (sz : Int) : HM α (List Nat × Int) := do
  let m ← look mat
  let new ← make (.construct (.mk2 sz m.cols))
  loop 1 m.cols () fun _ k => loop 1 sz () fun _ j => do
    let m ← look mat
    let v ← lift (m.getElem2 (s.2 + j) k)
    act (.inPlace new (.setElem2 v j k))
  pure (s.1 ++ [new], s.2 + sz)

/-- qc_functions.cpp:139-180 `splitMatrixIntoList`: a list of pointers. -/
def split (sizes : List Int) (mat : Nat) (dir : Str) : HM α (List Nat) :=
  if dir = "Columns".toList then do
    let s ← sizes.foldlM (splitCols mat) ([], 0)
    pure s.1
  else if dir = "Rows".toList then do
    let s ← sizes.foldlM (splitRows mat) ([], 0)
    pure s.1
  else lift (.throw .invalidArgument)

/-- qc_functions.cpp:372-386, one round of the "Columns" loop of `mergeListOfMatrices`. -/
def mergeCols (rows cols : Int) (full : Nat) (col : Int) (mat : Nat) : HM α Int :=
  if col > cols then lift (.throw .runtimeError)
  else do
    let m ← look mat
    let _ ← loop 1 m.rows (1 : Int) fun row i =>
      if row > rows then lift (.throw .runtimeError)
      else do
        loop 1 m.cols () fun _ j => do
          let m ← look mat
          let v ← lift (m.getElem2 i j)
          act (.inPlace full (.setElem2 v row (j + col)))
        pure (row + 1)
    pure (col + m.cols)

/-- qc_functions.cpp:389-403, one round of the "Rows" loop of `mergeListOfMatrices`. -/
def mergeRows (rows cols : Int) (full : Nat) (row : Int) (mat : Nat) : HM α Int :=
  if row > rows then lift (.throw .runtimeError)
  else do
    let m ← look mat
    let _ ← loop 1 m.cols (1 : Int) fun col j =>
      if col > cols then lift (.throw .runtimeError)
      else do
        loop 1 m.rows () fun _ i => do
          let m ← look mat
          let v ← lift (m.getElem2 i j)
          act (.inPlace full (.setElem2 v (row + i) col))
        pure (col + 1)
    pure (row + m.rows)

/-- qc_functions.cpp:366-414 `mergeListOfMatrices`. -/
def merge (l : List Nat) (rows cols : Int) (dir : Str) : HM α Nat := do
  let full ← make (.construct (.mk2 rows cols))
  if dir = "Columns".toList then do
    let _ ← l.foldlM (mergeCols rows cols full) 0
    pure full
  else if dir = "Rows".toList then do
    let _ ← l.foldlM (mergeRows rows cols full) 0
    pure full
  else lift (.throw .invalidArgument)

/-! ### unscrambling -/

/-- qc_functions.cpp:417-451, 486-509, 511-531: split, exchange the pointers, merge (two lists of matches). -/
def reorder2 (matchA matchB basis : List Int) (mat : Nat) (dir : Str) : HM α Nat := do
  let l ← split basis mat dir
  let monA := QC.pairUp 0 matchA
  let monB := QC.pairUp monA.length matchB
  let (monB, monA) ← lift (QC.refreshSwapOrder2 monB monA)
  let l ← lift (QC.updateSwapLists2 monB monA l)
  let m ← look mat
  merge l m.rows m.cols dir

/-- qc_functions.cpp:454-482, 539-556, 558-572: the same with one list of matches. -/
def reorder1 (matchA basis : List Int) (mat : Nat) (dir : Str) : HM α Nat := do
  let l ← split basis mat dir
  let monA ← lift (QC.refreshSwapOrder1 (QC.pairUp 0 matchA))
  let l ← lift (QC.updateSwapLists1 monA l)
  let m ← look mat
  merge l m.rows m.cols dir

/-- qc_functions.cpp:417-451 `unscramble_Coef(matchDimerA, matchDimerB, basisFuncP, dimerCoef)`. -/
def unscrambleCoef2 (matchA matchB basis : List Int) (coef : Nat) : HM α Nat :=
  reorder2 matchA matchB basis coef "Columns".toList

/-- qc_functions.cpp:454-482 `unscramble_Coef(matchDimerB, basisFuncB, Coef)`. -/
def unscrambleCoef1 (matchB basis : List Int) (coef : Nat) : HM α Nat := reorder1 matchB basis coef "Columns".toList

/-- qc_functions.cpp:486-534 `unscramble_S(matchDimerA, matchDimerB, basisFuncP, S)`; `S = S_new` (511) is an assignment of pointers. -/
def unscrambleS2 (matchA matchB basis : List Int) (S : Nat) : HM α Nat := do
  let S ← reorder2 matchA matchB basis S "Columns".toList
  reorder2 matchA matchB basis S "Rows".toList

/-- qc_functions.cpp:539-575 `unscramble_S(matchDimerA, basisFuncP, S)`. -/
def unscrambleS1 (matchA basis : List Int) (S : Nat) : HM α Nat := do
  let S ← reorder1 matchA basis S "Columns".toList
  reorder1 matchA basis S "Rows".toList

/-! ### the transfer integral -/

/-- matrix.cpp:893-909 `invert`: the transposed matrix is made with `new`, the object returned is a copy of it (908). -/
def invert (i : Nat) : HM α Nat := do
  let t ← make (.derive i .invert)
  make (.copyCtor t)

/-- `Matrix x = a * b;`: the product is made with `new` (matrix.cpp:218), and `x` is copy-constructed from it. (matrix.cpp:204-235;
qc_functions.cpp:87-105) -/
def product (i j : Nat) : HM α Nat := do
  let t ← make (.combine i j .mul)
  make (.copyCtor t)

/-- `z = Matrix_concatenate_rows(a, b);`: `a` is passed by value. (matrix.cpp:71; qc_functions.cpp:79-80) -/
def assignConcat (z a b : Nat) : HM α Unit := do
  let a' ← make (.copyCtor a)
  let t ← make (.combine a' b .concatRows)
  act (.assign z t)

/-- qc_functions.cpp:70-81: the two branches that fill `zetaA` and `zetaB`. -/
def setZetas (cp : Bool) (inv1 inv2 zetaA zetaB : Nat) : HM α Unit :=
  if cp then do
    act (.assign zetaA inv1)
    act (.assign zetaB inv2)
  else do
    let m1 ← look inv1
    let zerosA ← make (.construct (.mk3 m1.rows 1 m1.shel))
    let m2 ← look inv2
    let zerosB ← make (.construct (.mk3 m2.rows 1 m2.shel))
    assignConcat zetaA inv1 zerosB
    assignConcat zetaB zerosA inv2

/-- `m.get_elem(1, 1)`. (matrix.cpp:512-526; qc_functions.cpp:103-106) -/
def corner (i : Nat) : HM α α := do
  let m ← look i
  lift (m.getElem2 1 1)

variable [One α] [Sub α] [Div α]

/-- qc_functions.cpp:60-118 `calculate_transfer_integral`; the matrices are references, except `mat_P_Coef` (61), which is a copy made for
the call. -/
def transferIntegral (coef1 coef2 coefP S oe : Nat) (cp : Bool) : HM α (QC.Report α) := do
  let coefP ← make (.copyCtor coefP)
  let inv1 ← invert coef1
  let inv2 ← invert coef2
  let invP ← invert coefP
  let zetaA ← make (.construct .default)
  let zetaB ← make (.construct .default)
  setZetas cp inv1 inv2 zetaA zetaB
  let zetaAinv ← invert zetaA
  let zetaBinv ← invert zetaB
  let inter ← product S invP
  let gammaA ← product zetaAinv inter
  let gammaB ← product zetaBinv inter
  let gammaAinv ← invert gammaA
  let gammaBinv ← invert gammaB
  let sAB ← product gammaB gammaAinv
  let energy ← make (.derive oe .diag)
  let t1 ← make (.combine energy gammaAinv .mul)
  let jAB ← product gammaB t1
  let t2 ← make (.combine energy gammaBinv .mul)
  let eB ← product gammaB t2
  let t3 ← make (.combine energy gammaAinv .mul)
  let eA ← product gammaA t3
  let jab ← corner jAB
  let eb ← corner eB
  let ea ← corner eA
  let sab ← corner sAB
  pure ⟨jab, ea, eb, sab, (jab - 1 / (1 + 1) * (eb + ea) * sab) / (1 - sab * sab)⟩

/-- qc_functions.hpp:14-28, the data members of `TransferComplex`: five pointers, and the rest. -/
structure Complex where
  coef1 : Nat
  coef2 : Nat
  coefP : Nat
  orbs1 : Int × Int
  orbs2 : Int × Int
  S : Nat
  oe : Nat
  unscrambled : Bool
  cp : Bool

/-- qc_functions.cpp:581-624, the constructor. -/
def newComplex (coef1 coef2 coefP : Nat) (orbs1 orbs2 : Int × Int) (S oe : Nat) (cp : Bool) : HM α Complex := do
  let mS ← look S
  let mP ← look coefP
  if mS.cols ≠ mP.cols then lift (.throw .invalidArgument)
  else do
    let m1 ← look coef1
    let m2 ← look coef2
    if cp then
      if m1.cols ≠ mP.cols then lift (.throw .invalidArgument)
      else if m2.cols ≠ mP.cols then lift (.throw .invalidArgument)
      else pure ⟨coef1, coef2, coefP, orbs1, orbs2, S, oe, false, cp⟩
    else if m1.cols + m2.cols > mP.cols then lift (.throw .invalidArgument)
    else pure ⟨coef1, coef2, coefP, orbs1, orbs2, S, oe, false, cp⟩

/-- `a.matchCol(b, 4)`, which only reads. (matrix.cpp:861-891) -/
def matching [DecidableEq β] (tos : α → β) (a b : Nat) : HM α (List Int) := do
  let ma ← look a
  let mb ← look b
  lift (Mat.matchCol tos ma mb)

/-- qc_functions.cpp:626-674 `TransferComplex::unscramble`: the pointers are replaced. -/
def unscramble [DecidableEq β] (tos : α → β) (T : Complex) (coord1 coord2 coordP : Nat) (basisP basis2 : List Int) :
    HM α Complex :=
  if T.cp then do
    let match12 ← matching tos coord1 coord2
    let coef2 ← unscrambleCoef1 match12 basis2 T.coef2
    let match1P ← matching tos coord1 coordP
    let coefP ← unscrambleCoef1 match1P basisP T.coefP
    let S ← unscrambleS1 match1P basisP T.S
    pure { T with unscrambled := true, coef2 := coef2, coefP := coefP, S := S }
  else do
    let match1P ← matching tos coord1 coordP
    let match2P ← matching tos coord2 coordP
    let coefP ← unscrambleCoef2 match1P match2P basisP T.coefP
    let S ← unscrambleS2 match1P match2P basisP T.S
    pure { T with unscrambled := true, coefP := coefP, S := S }

/-- qc_functions.cpp:690-722 (and 724-759): `z = coef->getRow(…)`. -/
def assignRow (z coef : Nat) (orbs : Int × Int) (kind : Str) (mo : Int) : HM α Unit :=
  if kind = "HOMO".toList then
    if mo > 0 then lift (.throw .invalidArgument)
    else if mo ≤ -1 * orbs.2 then lift (.throw .invalidArgument)
    else do
      let r ← make (.derive coef (.getRow (orbs.2 + mo)))
      act (.assign z r)
  else if kind = "LUMO".toList then
    if mo < 0 then lift (.throw .invalidArgument)
    else if mo ≥ orbs.1 - orbs.2 then lift (.throw .invalidArgument)
    else do
      let r ← make (.derive coef (.getRow (orbs.2 + mo + 1)))
      act (.assign z r)
  else lift (.throw .invalidArgument)

/-- qc_functions.cpp:676-763 `TransferComplex::calcJ`. -/
def calcJ (T : Complex) (orbtype : Str → Option Str) (orbnum : Str → Option Int) : HM α (QC.Report α) := do
  let mat1 ← make (.construct .default)
  let mat2 ← make (.construct .default)
  let k1 ← lift (QC.mapAt orbtype "mon1".toList)
  let n1 ← lift (QC.mapAt orbnum "mon1".toList)
  assignRow mat1 T.coef1 T.orbs1 k1 n1
  let k2 ← lift (QC.mapAt orbtype "mon2".toList)
  let n2 ← lift (QC.mapAt orbnum "mon2".toList)
  assignRow mat2 T.coef2 T.orbs2 k2 n2
  transferIntegral mat1 mat2 T.coefP T.S T.oe T.cp

/-! ### the program -/

/-- The matrices a coefficient file reader holds, as pointers: each was made with `new Matrix(v_vec)` (punreader.cpp:96). A matrix that was
replaced by a later table of the same spin, and is referred to by nothing, is left out. -/
def placePun (d : PunData α) : HM α (Map Nat) := d.mapM fun p => fun st => .ok ((p.1, st.objs.length), st.fresh p.2 false)

/-- The overlap matrix a log file reader holds, as a pointer: made with `new Matrix(countCoef, countCoef)` (logreader.cpp:217); no pointer
when there was no table. -/
def placeLog (d : LogData α) : HM α (Option Nat) := fun st =>
  match d.S with
  | some m => .ok (some st.objs.length, st.fresh m false)
  | none => .ok (none, st)

/-- punreader.cpp:32-38 `getCoefsMatrix`: a pointer. -/
def getCoefs (coefs : Map Nat) (orbType : Str) : HM α Nat :=
  match coefs.get orbType with
  | some i => lift (.ok i)
  | none => lift (.throw .invalidArgument)

/-- logreader.hpp:21 `getOverlapMatrix`: a pointer; the uninitialised one counts as used. -/
def getOverlap (S : Option Nat) : HM α Nat :=
  match S with
  | some i => lift (.ok i)
  | none => lift .ub

/-- main.cpp:80-171, with the matrices of the readers given as pointers; from the log files only numbers, lists and maps are taken besides. -/
def report [DecidableEq β] (tos : α → β) (par : Params.Params) (prP pr1 pr2 : Map Nat) (S : Option Nat) (lrP lr1 lr2 : LogData α) :
    HM α (QC.Report α) := do
  let S ← getOverlap S
  let coefP ← getCoefs prP par.spinP
  let vecOEP ← lift (lrP.getOE par.spinP)
  let oeP ← make (.construct (.ofVec vecOEP))
  let homo1 ← lift (lr1.getHOMOLevel par.spin1)
  let coef1 ← getCoefs pr1 par.spin1
  let vecOE1 ← lift (lr1.getOE par.spin1)
  let oe1 ← make (.construct (.ofVec vecOE1))
  let homo2 ← lift (lr2.getHOMOLevel par.spin2)
  let coef2 ← getCoefs pr2 par.spin2
  let vecOE2 ← lift (lr2.getOE par.spin2)
  let oe2 ← make (.construct (.ofVec vecOE2))
  let coordP ← make (.construct (.ofVecVec lrP.getCoords))
  let coord1 ← make (.construct (.ofVecVec lr1.getCoords))
  let coord2 ← make (.construct (.ofVecVec lr2.getCoords))
  let basisP := lrP.getBasisFuncCount
  let basis1 := lr1.getBasisFuncCount
  let basis2 := lr2.getBasisFuncCount
  let m1 ← look oe1
  let m2 ← look oe2
  let T ← newComplex coef1 coef2 coefP (m1.rows, homo1) (m2.rows, homo2) S oeP par.counterPoise
  let T ← (if basis1.length ≠ 0 ∧ basis2.length ≠ 0 ∧ basisP.length ≠ 0 then
      unscramble tos T coord1 coord2 coordP basisP basis2
    else pure T)
  let orbitaltypes : Map Str := Map.set (Map.set [] (lit "mon1") par.orbType1) (lit "mon2") par.orbType2
  let orbitalnums : Map Int := Map.set (Map.set [] (lit "mon1") par.orbNum1) (lit "mon2") par.orbNum2
  calcJ T orbitaltypes.get orbitalnums.get

end

/-- main.cpp:29-175 `main`, the calculation being made on objects and heap: the parameters, the numbers printed, and the objects and
buffers there are at the end. -/
def calcJHeap {α β : Type} (D : Type) [Args.Dbl D] [Mul α] [Num α] [Zero α] [One α] [Add α] [Sub α] [Div α] [DecidableEq β] (tos : α → β)
    (files : Str → Option Str) (fuel : Nat) (args : List Str) : Res ((Params.Params × QC.Report α) × St α) := do
  let p ← Args.prepareParser (D := D)
  let p ← Args.parse (fsOf files) p args
  let par ← Args.prepareParameters p
  let ((prP, pr1, pr2), (lrP, lr1, lr2)) ← readFiles files fuel par
  (do
    let cP ← placePun prP
    let c1 ← placePun pr1
    let c2 ← placePun pr2
    let S ← placeLog lrP
    let _ ← placeLog lr1
    let _ ← placeLog lr2
    let r ← report tos par cP c1 c2 S lrP lr1 lr2
    pure (par, r) : HM α (Params.Params × QC.Report α)) ⟨[], []⟩

end Verif.Heap
