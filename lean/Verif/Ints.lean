import Verif.QC
/-
A second model of the arithmetic-heavy part of src/libcatnip/matrix.cpp and of calculate_transfer_integral in which every `int`
operation is checked: a result outside the range of a 32-bit `int` is undefined behaviour, as in C++. The other files use
mathematical integers; `Verif.Props.Ints` says when the two agree.
-/
namespace Verif.Ints
variable {α : Type}

/-- A value of type `int` (32 bits), or undefined behaviour. (the type of all indices in matrix.cpp and qc_functions.cpp) -/
def fit (n : Int) : Res Int := if -2147483648 ≤ n ∧ n ≤ 2147483647 then .ok n else .ub

/-- `a + b`, `a - b`, `a * b` on `int`. (matrix.cpp and qc_functions.cpp, throughout) -/
def add (a b : Int) : Res Int := fit (a + b)
@[inherit_doc add] def sub (a b : Int) : Res Int := fit (a - b)
@[inherit_doc add] def mul (a b : Int) : Res Int := fit (a * b)

/-- `for (int i = lo; i <= hi; ++i) s = body(s, i)`: the last `++i` makes `i` equal to `hi + 1`. (the loops of matrix.cpp and qc_functions.cpp, cited at each use below) -/
def loop {σ : Type} (lo hi : Int) (s : σ) (body : σ → Int → Res σ) : Res σ := do
  let s ← forRange lo hi s body
  if lo ≤ hi then do
    let _ ← fit (hi + 1)
    .ok s
  else .ok s

/-- matrix.cpp:439-441 `Matrix::index`: `(r - 1) * cols * shel + (c - 1) * shel + s - 1`. -/
def index (cols shel r c s : Int) : Res Int := do
  let a ← sub r 1
  let a ← mul a cols
  let a ← mul a shel
  let b ← sub c 1
  let b ← mul b shel
  let t ← add a b
  let t ← add t s
  sub t 1

/-- matrix.cpp:701-712 `get_elem(r)`. -/
def getElem1 (m : Mat α) (r : Int) : Res α :=
  if r < 1 then .exit 1
  else if r > m.rows then .exit 1
  else do
    let i ← index m.cols m.shel r 1 1
    m.elem.read i

/-- matrix.cpp:714-733 `get_elem(r, c)`. -/
def getElem2 (m : Mat α) (r c : Int) : Res α :=
  if r < 1 then .exit 1
  else if r > m.rows then .exit 1
  else if c < 1 then .exit 1
  else if c > m.cols then .exit 1
  else do
    let i ← index m.cols m.shel r c 1
    m.elem.read i

/-- matrix.cpp:739-769 `get_elem(r, c, s)`. -/
def getElem3 (m : Mat α) (r c s : Int) : Res α :=
  if r < 1 then .exit 1
  else if r > m.rows then .exit 1
  else if c < 1 then .exit 1
  else if c > m.cols then .exit 1
  else if s < 1 then .exit 1
  else if s > m.shel then .exit 1
  else do
    let i ← index m.cols m.shel r c s
    m.elem.read i

/-- matrix.cpp:611-624 `set_elem(val, r)`. -/
def setElem1 (m : Mat α) (v : α) (r : Int) : Res (Mat α) :=
  if r > m.rows then .exit 1
  else if r < 1 then .exit 1
  else do
    let i ← index m.cols m.shel r 1 1
    let b ← m.elem.write i v
    .ok { m with elem := b }

/-- matrix.cpp:626-651 `set_elem(val, r, c)`. -/
def setElem2 (m : Mat α) (v : α) (r c : Int) : Res (Mat α) :=
  if r > m.rows then .exit 1
  else if r < 1 then .exit 1
  else if c > m.cols then .exit 1
  else if c < 1 then .exit 1
  else do
    let i ← index m.cols m.shel r c 1
    let b ← m.elem.write i v
    .ok { m with elem := b }

/-- matrix.cpp:653-689 `set_elem(val, r, c, s)`. -/
def setElem3 (m : Mat α) (v : α) (r c s : Int) : Res (Mat α) :=
  if r > m.rows then .exit 1
  else if r < 1 then .exit 1
  else if c > m.cols then .exit 1
  else if c < 1 then .exit 1
  else if s > m.shel then .exit 1
  else if s < 1 then .exit 1
  else do
    let i ← index m.cols m.shel r c s
    let b ← m.elem.write i v
    .ok { m with elem := b }

/-- matrix.cpp:323-340 `Matrix(int r, int c)`. -/
def mk2 [Zero α] (r c : Int) : Res (Mat α) :=
  if r < 1 then .exit 1
  else if c < 1 then .exit 1
  else do
    let n ← mul r c
    let b ← loop 1 r (Buf.alloc n) fun b i =>
      loop 1 c b fun b j => do
        let x ← sub i 1
        let x ← mul x c
        let x ← add x j
        let x ← sub x 1
        b.write x 0
    .ok { rows := r, cols := c, shel := 1, elem := b }

/-- matrix.cpp:342-364 `Matrix(int r, int c, int s)`. -/
def mk3 [Zero α] (r c s : Int) : Res (Mat α) :=
  if r < 1 then .exit 1
  else if c < 1 then .exit 1
  else if s < 1 then .exit 1
  else do
    let n ← mul r c
    let n ← mul n s
    let b ← loop 1 r (Buf.alloc n) fun b i =>
      loop 1 c b fun b j =>
        loop 1 s b fun b k => do
          let x ← index c s i j k
          b.write x 0
    .ok { rows := r, cols := c, shel := s, elem := b }

/-- matrix.cpp:366-426 `Matrix::resize(r, c)`. The position `(i-1)*c*1+(j-1)*1+1-1` is `index` with one shelf. -/
def resize [Zero α] (m : Mat α) (r c : Int) : Res (Mat α) :=
  if r < 1 then .exit 1
  else if c < 1 then .exit 1
  else do
    let n ← mul r c
    let temp : Buf α := Buf.alloc n
    let copy (temp : Buf α) (i j : Int) : Res (Buf α) := do
      let x ← index m.cols m.shel i j 1
      let v ← m.elem.read x
      let p ← index c 1 i j 1
      temp.write p v
    let zero (temp : Buf α) (i j : Int) : Res (Buf α) := do
      let p ← index c 1 i j 1
      temp.write p 0
    let temp ←
      if r ≤ m.rows then
        loop 1 r temp fun temp i =>
          if c ≤ m.cols then
            loop 1 c temp fun temp j => copy temp i j
          else
            loop 1 c temp fun temp j => if j ≤ m.cols then copy temp i j else zero temp i j
      else
        loop 1 r temp fun temp i =>
          if c ≤ m.cols then
            loop 1 c temp fun temp j => if i ≤ m.rows then copy temp i j else zero temp i j
          else
            loop 1 c temp fun temp j =>
              if i ≤ m.rows ∧ j ≤ m.cols then copy temp i j else zero temp i j
    .ok { rows := r, cols := c, shel := 1, elem := temp }

/-- matrix.cpp:428-437 `Matrix::operator=`. -/
def assign [Zero α] (this m : Mat α) : Res (Mat α) := do
  let this ← resize this m.rows m.cols
  loop 1 m.rows this fun this i =>
    loop 1 m.cols this fun this j => do
      let v ← getElem2 m i j
      setElem2 this v i j

/-- matrix.cpp:893-909 `invert`. -/
def invert [Zero α] (m : Mat α) : Res (Mat α) :=
  if m.shel ≠ 1 then .exit 1
  else do
    let m2 ← mk2 m.cols m.rows
    loop 1 m.rows m2 fun m2 i =>
      loop 1 m.cols m2 fun m2 j => do
        let v ← getElem2 m i j
        setElem2 m2 v j i

/-- matrix.cpp:204-235 `operator*`. -/
def product [Zero α] [Add α] [Mul α] (m1 m2 : Mat α) : Res (Mat α) :=
  if m1.shel ≠ 1 ∨ m2.shel ≠ 1 then .exit 1
  else if m1.cols ≠ m2.rows then .exit 1
  else do
    let m3 ← mk2 m1.rows m2.cols
    loop 1 m1.rows m3 fun m3 i =>
      loop 1 m2.cols m3 fun m3 j => do
        let sum ← loop 1 m1.cols (0 : α) fun sum k => do
          let a ← getElem2 m1 i k
          let b ← getElem2 m2 k j
          .ok (sum + a * b)
        setElem2 m3 sum i j

/-- matrix.cpp:17-48 `Matrix_diag`. -/
def diag [Zero α] (m : Mat α) : Res (Mat α) :=
  if m.cols > 1 ∧ m.rows > 1 then .throw .invalidArgument
  else if m.shel > 1 then .throw .invalidArgument
  else if m.cols > m.rows then do
    let m2 ← mk2 m.cols m.cols
    loop 1 m.cols m2 fun m2 i => do
      let v ← getElem2 m 1 i
      setElem2 m2 v i i
  else do
    let m2 ← mk2 m.rows m.rows
    loop 1 m.rows m2 fun m2 i => do
      let v ← getElem2 m i 1
      setElem2 m2 v i i

/-- matrix.cpp:71-119 `Matrix_concatenate_rows`. -/
def concatRows [Zero α] (m1 m2 : Mat α) : Res (Mat α) :=
  if m1.cols ≠ m2.cols then Mat.default
  else if m1.shel ≠ m2.shel then Mat.default
  else do
    let total ← add m1.rows m2.rows
    let m3 ← mk3 total m1.cols m1.shel
    let m3 ← loop 1 m1.rows m3 fun m3 i =>
      loop 1 m1.cols m3 fun m3 j =>
        loop 1 m1.shel m3 fun m3 k => do
          let v ← getElem3 m1 i j k
          setElem3 m3 v i j k
    loop 1 m2.rows m3 fun m3 i =>
      loop 1 m2.cols m3 fun m3 j =>
        loop 1 m2.shel m3 fun m3 k => do
          let v ← getElem3 m2 i j k
          let p ← add i m1.rows
          setElem3 m3 v p j k

/-- matrix.cpp:911-928 `getRow`. -/
def getRow [Zero α] (m : Mat α) (R : Int) : Res (Mat α) :=
  if m.rows < R then .exit 1
  else do
    let m2 ← mk3 1 m.cols m.shel
    loop 1 m.cols m2 fun m2 j =>
      loop 1 m.shel m2 fun m2 k => do
        let v ← getElem3 m R j k
        setElem3 m2 v 1 j k

/-- qc_functions.cpp:60-118 `calculate_transfer_integral`: the numbers it prints. -/
def transferReport [Zero α] [One α] [Add α] [Sub α] [Mul α] [Div α]
    (coef1 coef2 coefP S oe : Mat α) (cp : Bool) : Res (QC.Report α) := do
  let inv1 ← invert coef1
  let inv2 ← invert coef2
  let invP ← invert coefP
  let dA ← Mat.default
  let dB ← Mat.default
  let (zetaA, zetaB) ← (if cp then do
      let a ← assign dA inv1
      let b ← assign dB inv2
      Res.ok (a, b)
    else do
      let zerosA ← mk3 inv1.rows 1 inv1.shel
      let zerosB ← mk3 inv2.rows 1 inv2.shel
      let ca ← concatRows inv1 zerosB
      let a ← assign dA ca
      let cb ← concatRows zerosA inv2
      let b ← assign dB cb
      Res.ok (a, b))
  let zAi ← invert zetaA
  let zBi ← invert zetaB
  let inter ← product S invP
  let gA ← product zAi inter
  let gB ← product zBi inter
  let gAi ← invert gA
  let gBi ← invert gB
  let sAB ← product gB gAi
  let energy ← diag oe
  let t1 ← product energy gAi
  let jAB ← product gB t1
  let t2 ← product energy gBi
  let eB ← product gB t2
  let t3 ← product energy gAi
  let eA ← product gA t3
  let Jab ← getElem2 jAB 1 1
  let eb ← getElem2 eB 1 1
  let ea ← getElem2 eA 1 1
  let Sab ← getElem2 sAB 1 1
  .ok ⟨Jab, ea, eb, Sab, (Jab - 1 / (1 + 1) * (eb + ea) * Sab) / (1 - Sab * Sab)⟩

/-- qc_functions.cpp:692-718 (and 724-759 for the second monomer): the row of coefficients a request selects. -/
def selectRow [Zero α] (coef : Mat α) (orbs : Int × Int) (homoOrLumo : Str) (MO : Int) : Res (Mat α) :=
  if homoOrLumo = "HOMO".toList then
    if MO > 0 then .throw .invalidArgument
    else do
      let least ← mul (-1) orbs.2
      if MO ≤ least then .throw .invalidArgument
      else do
        let row ← add orbs.2 MO
        getRow coef row
  else if homoOrLumo = "LUMO".toList then
    if MO < 0 then .throw .invalidArgument
    else do
      let allowed ← sub orbs.1 orbs.2
      if MO ≥ allowed then .throw .invalidArgument
      else do
        let row ← add orbs.2 MO
        let row ← add row 1
        getRow coef row
  else .throw .invalidArgument

/-- qc_functions.cpp:676-763 `TransferComplex::calcJ`: the numbers it prints. -/
def calcJReport [Zero α] [One α] [Add α] [Sub α] [Mul α] [Div α] (T : QC.TransferComplex α)
    (orbtype : Str → Option Str) (orbnum : Str → Option Int) : Res (QC.Report α) := do
  let d1 ← Mat.default
  let d2 ← Mat.default
  let k1 ← QC.mapAt orbtype "mon1".toList
  let n1 ← QC.mapAt orbnum "mon1".toList
  let r1 ← selectRow T.coef1 T.orbs1 k1 n1
  let m1 ← assign d1 r1
  let k2 ← QC.mapAt orbtype "mon2".toList
  let n2 ← QC.mapAt orbnum "mon2".toList
  let r2 ← selectRow T.coef2 T.orbs2 k2 n2
  let m2 ← assign d2 r2
  transferReport m1 m2 T.coefP T.S T.oe T.cp

end Verif.Ints
