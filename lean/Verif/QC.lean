import Verif.Matrix
/-
Model of src/libcatnip/qc_functions.cpp and qc_functions.hpp.

Pointers to matrices that the code only reads are the matrices themselves: none of the functions here writes to a
matrix it did not just construct, so sharing (see `Verif.Heap`) cannot be observed.
-/
namespace Verif

/-- Strings are lists of characters. (`std::string`, throughout src/libcatnip, e.g. string_support.cpp) -/
abbrev Str := List Char

namespace QC
variable {α : Type}

/-! ### the swap schedule -/

/-- One `while` + `find_if` sweep, qc_functions.cpp:260-269, 270-278, 292-301, 314-323, over the entries from the
iterator to the end: the first entry whose `second` equals `was` gets `second = is`, and the search restarts *at that
entry*. When `is = was` it finds the same entry again, forever. (`sweepFuel` is the literal loop; `sweepFuel_ok` and
`sweepFuel_diverge` in `Verif.QCSwap` show this is what it computes.) -/
def sweep (was is : Int) : List (Int × Int) → Res (List (Int × Int))
  | [] => .ok []
  | p :: ps =>
    if p.2 = was then
      if is = was then .diverge
      else do
        let ps ← sweep was is ps
        .ok ((p.1, is) :: ps)
    else do
      let ps ← sweep was is ps
      .ok (p :: ps)

/-- The literal loop (same lines), `pos` being the iterator, at most `fuel` iterations. (qc_functions.cpp:260-269, 270-278, 292-301, 314-323) -/
def sweepFuel (was is : Int) : Nat → List (Int × Int) → Nat → Res (List (Int × Int))
  | 0, _, _ => .diverge
  | fuel + 1, l, pos =>
    if pos < l.length then
      match (l.drop pos).findIdx? (fun p => was = p.2) with
      | some k =>
        let pos := pos + k
        sweepFuel was is fuel (l.set pos ((l.getD pos (0, 0)).1, is)) pos
      | none => .ok l
    else .ok l

/-- qc_functions.cpp:255-279, the loop over `monBmatch`; the second argument is the part from `pr_ptr` on, the first its
length (sweeps keep the length, so the second line is never reached: `refreshB_cons` in `Verif.QCSwap`). -/
def refreshBN : Nat → List (Int × Int) → List (Int × Int) → Res (List (Int × Int) × List (Int × Int))
  | _, [], A => .ok ([], A)
  | 0, _ :: _, _ => .diverge
  | n + 1, p :: B, A => do
    let B ← sweep p.1 p.2 B
    let A ← sweep p.1 p.2 A
    let (B, A) ← refreshBN n B A
    .ok (p :: B, A)

/-- qc_functions.cpp:255-279. -/
def refreshB (B A : List (Int × Int)) : Res (List (Int × Int) × List (Int × Int)) := refreshBN B.length B A

/-- A loop over a vector in which entry `p` may change the entries after it (`guard p` is the condition under which the
sweep is made): qc_functions.cpp:287-303 (`guard`: `row1was != row1is`) and 309-324 (always). First argument as in
`refreshBN`. -/
def refreshTailN (guard : Int × Int → Bool) : Nat → List (Int × Int) → Res (List (Int × Int))
  | _, [] => .ok []
  | 0, _ :: _ => .diverge
  | n + 1, p :: A => do
    let A ← (if guard p then sweep p.1 p.2 A else .ok A)
    let A ← refreshTailN guard n A
    .ok (p :: A)

/-- qc_functions.cpp:287-303 and 309-324. -/
def refreshTail (guard : Int × Int → Bool) (A : List (Int × Int)) : Res (List (Int × Int)) :=
  refreshTailN guard A.length A

/-- qc_functions.cpp:241-305 `refreshSwapOrder(monBmatch, monAmatch)`; returns both vectors. -/
def refreshSwapOrder2 (B A : List (Int × Int)) : Res (List (Int × Int) × List (Int × Int)) := do
  let (B, A) ← refreshB B A
  let A ← refreshTail (fun p => p.1 ≠ p.2) A
  .ok (B, A)

/-- qc_functions.cpp:307-326 `refreshSwapOrder(monAmatch)`. -/
def refreshSwapOrder1 (A : List (Int × Int)) : Res (List (Int × Int)) := refreshTail (fun _ => true) A

/-- `*next(list.begin(), n)`: outside the list this is undefined (also for negative `n`, which decrements `begin()`). (qc_functions.cpp:337-347, 358-360) -/
def listGet {β : Type} (l : List β) (n : Int) : Res β :=
  if n < 0 then .ub else match l[n.toNat]? with | some v => .ok v | none => .ub

/-- `*next(list.begin(), n) = v`. (qc_functions.cpp:338-339, 346-347, 359-360) -/
def listSet {β : Type} (l : List β) (n : Int) (v : β) : Res (List β) :=
  if 0 ≤ n ∧ n < l.length then .ok (l.set n.toNat v) else .ub

/-- qc_functions.cpp:335-340, 343-348, 356-361: exchange positions `p.first` and `p.second`. -/
def swapEntry {β : Type} (l : List β) (p : Int × Int) : Res (List β) :=
  if p.1 ≠ p.2 then do
    let temp ← listGet l (p.1 - 1)
    let v ← listGet l (p.2 - 1)
    let l ← listSet l (p.1 - 1) v
    listSet l (p.2 - 1) temp
  else .ok l

/-- qc_functions.cpp:352-364 `updateSwapLists(monAmatch, list)`. -/
def updateSwapLists1 {β : Type} (A : List (Int × Int)) (l : List β) : Res (List β) := A.foldlM swapEntry l

/-- qc_functions.cpp:330-351 `updateSwapLists(monBmatch, monAmatch, list)`. -/
def updateSwapLists2 {β : Type} (B A : List (Int × Int)) (l : List β) : Res (List β) := do
  let l ← updateSwapLists1 B l
  updateSwapLists1 A l

/-! ### splitting and merging -/

/-- qc_functions.cpp:147-157, the body of the "Columns" loop for one block. -/
def splitColsStep [Zero α] (mat : Mat α) (st : List (Mat α) × Int) (sz : Int) : Res (List (Mat α) × Int) := do
  let new ← Mat.mk2 mat.rows sz
  let new ← forRange 1 mat.rows new fun new k =>
    forRange 1 sz new fun new j => do
      let v ← mat.getElem2 k (st.2 + j)
      new.setElem2 v k j
  .ok (st.1 ++ [new], st.2 + sz)

/-- qc_functions.cpp:160-170, the body of the "Rows" loop for one block. -/
def splitRowsStep [Zero α] (mat : Mat α) (st : List (Mat α) × Int) (sz : Int) : Res (List (Mat α) × Int) := do
  let new ← Mat.mk2 sz mat.cols
  let new ← forRange 1 mat.cols new fun new k =>
    forRange 1 sz new fun new j => do
      let v ← mat.getElem2 (st.2 + j) k
      new.setElem2 v j k
  .ok (st.1 ++ [new], st.2 + sz)

/-- qc_functions.cpp:139-180 `splitMatrixIntoList` (and `splitCoefsUpByAtoms`, which only calls it). -/
def splitMatrixIntoList [Zero α] (sizes : List Int) (mat : Mat α) (dir : Str) : Res (List (Mat α)) :=
  if dir = "Columns".toList then do
    let st ← sizes.foldlM (splitColsStep mat) ([], 0)
    .ok st.1
  else if dir = "Rows".toList then do
    let st ← sizes.foldlM (splitRowsStep mat) ([], 0)
    .ok st.1
  else .throw .invalidArgument

/-- qc_functions.cpp:372-386, the body of the "Columns" loop for one block; the state is `(full_matrix, col)`. -/
def mergeColsStep (rows cols : Int) (st : Mat α × Int) (m : Mat α) : Res (Mat α × Int) :=
  if st.2 > cols then .throw .runtimeError
  else do
    let (full, _) ← forRange 1 m.rows (st.1, (1 : Int)) fun (full, row) i =>
      if row > rows then .throw .runtimeError
      else do
        let full ← forRange 1 m.cols full fun full j => do
          let v ← m.getElem2 i j
          full.setElem2 v row (j + st.2)
        .ok (full, row + 1)
    .ok (full, st.2 + m.cols)

/-- qc_functions.cpp:389-403, the body of the "Rows" loop for one block; the state is `(full_matrix, row)`. -/
def mergeRowsStep (rows cols : Int) (st : Mat α × Int) (m : Mat α) : Res (Mat α × Int) :=
  if st.2 > rows then .throw .runtimeError
  else do
    let (full, _) ← forRange 1 m.cols (st.1, (1 : Int)) fun (full, col) j =>
      if col > cols then .throw .runtimeError
      else do
        let full ← forRange 1 m.rows full fun full i => do
          let v ← m.getElem2 i j
          full.setElem2 v (st.2 + i) col
        .ok (full, col + 1)
    .ok (full, st.2 + m.rows)

/-- qc_functions.cpp:366-414 `mergeListOfMatrices` (and `createNewMatrix`, which only calls it). -/
def mergeListOfMatrices [Zero α] (l : List (Mat α)) (rows cols : Int) (dir : Str) : Res (Mat α) := do
  let full ← Mat.mk2 rows cols
  if dir = "Columns".toList then do
    let st ← l.foldlM (mergeColsStep rows cols) (full, 0)
    .ok st.1
  else if dir = "Rows".toList then do
    let st ← l.foldlM (mergeRowsStep rows cols) (full, 0)
    .ok st.1
  else .throw .invalidArgument

/-! ### unscrambling -/

/-- qc_functions.cpp:435-444, 471-475, 494-503, 516-525, 546-550, 562-566: pair every match with the position it is wanted at, starting at `k + 1`. -/
def pairUp (k : Int) : List Int → List (Int × Int)
  | [] => []
  | m :: ms => (k + 1, m) :: pairUp (k + 1) ms

/-- qc_functions.cpp:417-451 `unscramble_Coef(matchDimerA, matchDimerB, basisFuncP, dimerCoef)`. -/
def unscrambleCoef2 [Zero α] (matchA matchB basis : List Int) (coef : Mat α) : Res (Mat α) := do
  let l ← splitMatrixIntoList basis coef "Columns".toList
  let monA := pairUp 0 matchA
  let monB := pairUp monA.length matchB
  let (monB, monA) ← refreshSwapOrder2 monB monA
  let l ← updateSwapLists2 monB monA l
  mergeListOfMatrices l coef.rows coef.cols "Columns".toList

/-- qc_functions.cpp:454-482 `unscramble_Coef(matchDimerB, basisFuncB, Coef)`. -/
def unscrambleCoef1 [Zero α] (matchB basis : List Int) (coef : Mat α) : Res (Mat α) := do
  let l ← splitMatrixIntoList basis coef "Columns".toList
  let monB ← refreshSwapOrder1 (pairUp 0 matchB)
  let l ← updateSwapLists1 monB l
  mergeListOfMatrices l coef.rows coef.cols "Columns".toList

/-- qc_functions.cpp:486-534 `unscramble_S(matchDimerA, matchDimerB, basisFuncP, S)`. -/
def unscrambleS2 [Zero α] (matchA matchB basis : List Int) (S : Mat α) : Res (Mat α) := do
  let S ← (do
    let l ← splitMatrixIntoList basis S "Columns".toList
    let monA := pairUp 0 matchA
    let monB := pairUp monA.length matchB
    let (monB, monA) ← refreshSwapOrder2 monB monA
    let l ← updateSwapLists2 monB monA l
    mergeListOfMatrices l S.rows S.cols "Columns".toList)
  let l ← splitMatrixIntoList basis S "Rows".toList
  let monA := pairUp 0 matchA
  let monB := pairUp monA.length matchB
  let (monB, monA) ← refreshSwapOrder2 monB monA
  let l ← updateSwapLists2 monB monA l
  mergeListOfMatrices l S.rows S.cols "Rows".toList

/-- qc_functions.cpp:539-575 `unscramble_S(matchDimerA, basisFuncP, S)`. -/
def unscrambleS1 [Zero α] (matchA basis : List Int) (S : Mat α) : Res (Mat α) := do
  let S ← (do
    let l ← splitMatrixIntoList basis S "Columns".toList
    let monA ← refreshSwapOrder1 (pairUp 0 matchA)
    let l ← updateSwapLists1 monA l
    mergeListOfMatrices l S.rows S.cols "Columns".toList)
  let l ← splitMatrixIntoList basis S "Rows".toList
  let monA ← refreshSwapOrder1 (pairUp 0 matchA)
  let l ← updateSwapLists1 monA l
  mergeListOfMatrices l S.rows S.cols "Rows".toList

/-! ### the transfer integral -/

/-- The five numbers `calculate_transfer_integral` prints (qc_functions.cpp:111-115), before `hartreeToeV` is applied. -/
structure Report (α : Type) where
  jab : α
  ea : α
  eb : α
  sab : α
  jeff : α
deriving DecidableEq

/-- qc_functions.cpp:60-118 `calculate_transfer_integral`: the numbers it prints; the last one is returned. `pow(x,2)` is `x * x`,
`(double)2` is `1 + 1`. Division is that of `α`. -/
def transferReport [Zero α] [One α] [Add α] [Sub α] [Mul α] [Div α]
    (coef1 coef2 coefP S oe : Mat α) (cp : Bool) : Res (Report α) := do
  let inv1 ← coef1.invert
  let inv2 ← coef2.invert
  let invP ← coefP.invert
  let dA ← Mat.default
  let dB ← Mat.default
  let (zetaA, zetaB) ← (if cp then do
      let a ← dA.assign inv1
      let b ← dB.assign inv2
      Res.ok (a, b)
    else do
      let zerosA ← Mat.mk3 inv1.rows 1 inv1.shel
      let zerosB ← Mat.mk3 inv2.rows 1 inv2.shel
      let ca ← inv1.concatRows zerosB
      let a ← dA.assign ca
      let cb ← zerosA.concatRows inv2
      let b ← dB.assign cb
      Res.ok (a, b))
  let zAi ← zetaA.invert
  let zBi ← zetaB.invert
  let inter ← S.mul invP
  let gA ← zAi.mul inter
  let gB ← zBi.mul inter
  let gAi ← gA.invert
  let gBi ← gB.invert
  let sAB ← gB.mul gAi
  let energy ← oe.diag
  let t1 ← energy.mul gAi
  let jAB ← gB.mul t1
  let t2 ← energy.mul gBi
  let eB ← gB.mul t2
  let t3 ← energy.mul gAi
  let eA ← gA.mul t3
  let Jab ← jAB.getElem2 1 1
  let eb ← eB.getElem2 1 1
  let ea ← eA.getElem2 1 1
  let Sab ← sAB.getElem2 1 1
  .ok ⟨Jab, ea, eb, Sab, (Jab - 1 / (1 + 1) * (eb + ea) * Sab) / (1 - Sab * Sab)⟩

/-- qc_functions.cpp:60-118 `calculate_transfer_integral`: what it returns. -/
def calculateTransferIntegral [Zero α] [One α] [Add α] [Sub α] [Mul α] [Div α]
    (coef1 coef2 coefP S oe : Mat α) (cp : Bool) : Res α := do
  let r ← transferReport coef1 coef2 coefP S oe cp
  .ok r.jeff

theorem calculateTransferIntegral_def [Zero α] [One α] [Add α] [Sub α] [Mul α] [Div α]
    (coef1 coef2 coefP S oe : Mat α) (cp : Bool) : calculateTransferIntegral coef1 coef2 coefP S oe cp = (do
    let inv1 ← coef1.invert
    let inv2 ← coef2.invert
    let invP ← coefP.invert
    let dA ← Mat.default
    let dB ← Mat.default
    let (zetaA, zetaB) ← (if cp then do
        let a ← dA.assign inv1
        let b ← dB.assign inv2
        Res.ok (a, b)
      else do
        let zerosA ← Mat.mk3 inv1.rows 1 inv1.shel
        let zerosB ← Mat.mk3 inv2.rows 1 inv2.shel
        let ca ← inv1.concatRows zerosB
        let a ← dA.assign ca
        let cb ← zerosA.concatRows inv2
        let b ← dB.assign cb
        Res.ok (a, b))
    let zAi ← zetaA.invert
    let zBi ← zetaB.invert
    let inter ← S.mul invP
    let gA ← zAi.mul inter
    let gB ← zBi.mul inter
    let gAi ← gA.invert
    let gBi ← gB.invert
    let sAB ← gB.mul gAi
    let energy ← oe.diag
    let t1 ← energy.mul gAi
    let jAB ← gB.mul t1
    let t2 ← energy.mul gBi
    let eB ← gB.mul t2
    let t3 ← energy.mul gAi
    let eA ← gA.mul t3
    let Jab ← jAB.getElem2 1 1
    let eb ← eB.getElem2 1 1
    let ea ← eA.getElem2 1 1
    let Sab ← sAB.getElem2 1 1
    .ok ((Jab - 1 / (1 + 1) * (eb + ea) * Sab) / (1 - Sab * Sab))) := by
  unfold calculateTransferIntegral transferReport
  simp only [bind_assoc, Res.ok_bind]

/-- qc_functions.hpp:14-28, the data members of `TransferComplex`. `orbs1 = (number of orbitals, HOMO level)`. -/
structure TransferComplex (α : Type) where
  coef1 : Mat α
  coef2 : Mat α
  coefP : Mat α
  orbs1 : Int × Int
  orbs2 : Int × Int
  S : Mat α
  oe : Mat α
  unscrambled : Bool
  cp : Bool

/-- qc_functions.cpp:581-624, the constructor. -/
def TransferComplex.new (coef1 coef2 coefP : Mat α) (orbs1 orbs2 : Int × Int) (S oe : Mat α) (cp : Bool) :
    Res (TransferComplex α) :=
  if S.cols ≠ coefP.cols then .throw .invalidArgument
  else
    let made : TransferComplex α := ⟨coef1, coef2, coefP, orbs1, orbs2, S, oe, false, cp⟩
    if cp then
      if coef1.cols ≠ coefP.cols then .throw .invalidArgument
      else if coef2.cols ≠ coefP.cols then .throw .invalidArgument
      else .ok made
    else
      if coef1.cols + coef2.cols > coefP.cols then .throw .invalidArgument
      else .ok made

/-- qc_functions.cpp:626-674 `TransferComplex::unscramble`. `tos` is `double_tos(·, 4)`. -/
def TransferComplex.unscramble [Zero α] {β : Type} [DecidableEq β] (tos : α → β) (T : TransferComplex α)
    (coord1 coord2 coordP : Mat α) (basisP basis2 : List Int) : Res (TransferComplex α) :=
  if T.cp then do
    let match12 ← Mat.matchCol tos coord1 coord2
    let coef2 ← unscrambleCoef1 match12 basis2 T.coef2
    let match1P ← Mat.matchCol tos coord1 coordP
    let coefP ← unscrambleCoef1 match1P basisP T.coefP
    let S ← unscrambleS1 match1P basisP T.S
    .ok { T with unscrambled := true, coef2 := coef2, coefP := coefP, S := S }
  else do
    let match1P ← Mat.matchCol tos coord1 coordP
    let match2P ← Mat.matchCol tos coord2 coordP
    let coefP ← unscrambleCoef2 match1P match2P basisP T.coefP
    let S ← unscrambleS2 match1P match2P basisP T.S
    .ok { T with unscrambled := true, coefP := coefP, S := S }

/-- qc_functions.cpp:690-722 (and 724-759 for monomer 2): the row of coefficients named by type and number. -/
def selectRow [Zero α] (coef : Mat α) (orbs : Int × Int) (kind : Str) (mo : Int) : Res (Mat α) :=
  if kind = "HOMO".toList then
    if mo > 0 then .throw .invalidArgument
    else if mo ≤ -1 * orbs.2 then .throw .invalidArgument
    else coef.getRow (orbs.2 + mo)
  else if kind = "LUMO".toList then
    if mo < 0 then .throw .invalidArgument
    else if mo ≥ orbs.1 - orbs.2 then .throw .invalidArgument
    else coef.getRow (orbs.2 + mo + 1)
  else .throw .invalidArgument

/-- `std::map::at`. (qc_functions.cpp:690-760) -/
def mapAt {β : Type} (m : Str → Option β) (k : Str) : Res β :=
  match m k with
  | some v => .ok v
  | none => .throw .outOfRange

/-- qc_functions.cpp:676-763 `TransferComplex::calcJ`: the numbers it prints. The warning printed when not unscrambled is dropped. -/
def TransferComplex.calcJReport [Zero α] [One α] [Add α] [Sub α] [Mul α] [Div α] (T : TransferComplex α)
    (orbtype : Str → Option Str) (orbnum : Str → Option Int) : Res (Report α) := do
  let d1 ← Mat.default
  let d2 ← Mat.default
  let k1 ← mapAt orbtype "mon1".toList
  let n1 ← mapAt orbnum "mon1".toList
  let r1 ← selectRow T.coef1 T.orbs1 k1 n1
  let m1 ← d1.assign r1
  let k2 ← mapAt orbtype "mon2".toList
  let n2 ← mapAt orbnum "mon2".toList
  let r2 ← selectRow T.coef2 T.orbs2 k2 n2
  let m2 ← d2.assign r2
  transferReport m1 m2 T.coefP T.S T.oe T.cp

/-- qc_functions.cpp:676-763 `TransferComplex::calcJ`: what it returns. -/
def TransferComplex.calcJ [Zero α] [One α] [Add α] [Sub α] [Mul α] [Div α] (T : TransferComplex α)
    (orbtype : Str → Option Str) (orbnum : Str → Option Int) : Res α := do
  let r ← T.calcJReport orbtype orbnum
  .ok r.jeff

theorem TransferComplex.calcJ_def [Zero α] [One α] [Add α] [Sub α] [Mul α] [Div α] (T : TransferComplex α)
    (orbtype : Str → Option Str) (orbnum : Str → Option Int) : T.calcJ orbtype orbnum = (do
    let d1 ← Mat.default
    let d2 ← Mat.default
    let k1 ← mapAt orbtype "mon1".toList
    let n1 ← mapAt orbnum "mon1".toList
    let r1 ← selectRow T.coef1 T.orbs1 k1 n1
    let m1 ← d1.assign r1
    let k2 ← mapAt orbtype "mon2".toList
    let n2 ← mapAt orbnum "mon2".toList
    let r2 ← selectRow T.coef2 T.orbs2 k2 n2
    let m2 ← d2.assign r2
    calculateTransferIntegral m1 m2 T.coefP T.S T.oe T.cp) := by
  unfold TransferComplex.calcJ TransferComplex.calcJReport calculateTransferIntegral
  simp only [bind_assoc]

/-! ### findRank -/

/-- The two spin labels of qc_functions.cpp:30, 40. -/
inductive Spin
  | alpha
  | beta
deriving DecidableEq, Repr

/-- qc_functions.cpp:27-32: the energies of a column with their label. -/
def rankCol (m : Mat α) (s : Spin) : Res (List (α × Spin)) :=
  forRange 1 m.rows [] fun acc ind => do
    let v ← m.getElem1 ind
    .ok (acc ++ [(v, s)])

/-- qc_functions.cpp:24-43: everything before the sort. -/
def findRankAll [Zero α] (a b : Mat α) : Res (List (α × Spin)) := do
  let ma ← a.getCol 1
  let all ← rankCol ma .alpha
  if b.cols > 0 then do
    let mb ← b.getCol 1
    let allb ← rankCol mb .beta
    .ok (all ++ allb)
  else .ok all

/-- qc_functions.cpp:21-57 `findRank`: `sort` stands for `std::sort` with the comparison `P1.first < P2.first`; the map
is the sorted list, rank `i` being its `i`-th entry. -/
def findRank [Zero α] (sort : List (α × Spin) → List (α × Spin)) (a b : Mat α) : Res (List (α × Spin)) := do
  let all ← findRankAll a b
  .ok (sort all)

end QC
end Verif
