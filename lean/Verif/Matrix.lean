import Verif.Res
/-
Model of src/libcatnip/matrix.hpp and src/libcatnip/matrix.cpp.

Conventions: `double` is an arbitrary type `α` (with a `Zero` where the code writes the literal 0);
`int` is `Int`; a heap buffer `double*` obtained by `new double[n]` is a list of `n` cells, `none` being a cell
that has not been written yet. Reading or writing outside the buffer, or reading an unwritten cell, is `ub`.
Messages printed before `exit(1)` are dropped. Member functions that mutate `*this` return the new matrix.
-/
namespace Verif

/-- A heap buffer `double *`. (matrix.hpp:14) -/
abbrev Buf (α : Type) := List (Option α)

namespace Buf
variable {α : Type}

/-- `new double[n]`: uninitialised cells. (A negative `n` cannot occur in the modelled code without
`int` overflow, which is not modelled.) (matrix.cpp:245, 253, 267, 281, 316, 334, 356, 378, 479-593) -/
def alloc (n : Int) : Buf α := List.replicate n.toNat none

/-- `elem[i]` as an rvalue. (matrix.cpp:739-769) -/
def read (b : Buf α) (i : Int) : Res α :=
  if i < 0 then .ub
  else match b[i.toNat]? with
    | some (some v) => .ok v
    | _ => .ub

/-- `elem[i] = v`. (matrix.cpp:609-689) -/
def write (b : Buf α) (i : Int) (v : α) : Res (Buf α) :=
  if 0 ≤ i ∧ i < b.length then .ok (b.set i.toNat (some v)) else .ub

end Buf

/-- `std::vector::at(i)` for an `int` index: a negative index converts to a huge `size_t`. (matrix.cpp:451, 465) -/
def vecAt {α : Type} (l : List α) (i : Int) : Res α :=
  if i < 0 then .throw .outOfRange
  else match l[i.toNat]? with
    | some v => .ok v
    | none => .throw .outOfRange

/-- matrix.hpp:9-14, the data members of `class Matrix`. -/
structure Mat (α : Type) where
  rows : Int
  cols : Int
  shel : Int
  elem : Buf α
deriving DecidableEq, Repr

namespace Mat
variable {α : Type}

/-- matrix.cpp:439-441 `Matrix::index`, as a function of the two dimensions it uses. -/
def idx (cols shel r c s : Int) : Int := (r - 1) * cols * shel + (c - 1) * shel + s - 1

/-- matrix.cpp:439-441 `Matrix::index`. -/
def index (m : Mat α) (r c s : Int) : Int := idx m.cols m.shel r c s

/-! ### element access -/

/-- matrix.cpp:609 `set_elem(val)`. -/
def setElem0 (m : Mat α) (v : α) : Res (Mat α) := do
  let b ← m.elem.write 0 v
  .ok { m with elem := b }

/-- matrix.cpp:611-624 `set_elem(val, r)`. -/
def setElem1 (m : Mat α) (v : α) (r : Int) : Res (Mat α) :=
  if r > m.rows then .exit 1
  else if r < 1 then .exit 1
  else do
    let b ← m.elem.write (m.index r 1 1) v
    .ok { m with elem := b }

/-- matrix.cpp:626-651 `set_elem(val, r, c)`. -/
def setElem2 (m : Mat α) (v : α) (r c : Int) : Res (Mat α) :=
  if r > m.rows then .exit 1
  else if r < 1 then .exit 1
  else if c > m.cols then .exit 1
  else if c < 1 then .exit 1
  else do
    let b ← m.elem.write (m.index r c 1) v
    .ok { m with elem := b }

/-- matrix.cpp:653-689 `set_elem(val, r, c, s)`. -/
def setElem3 (m : Mat α) (v : α) (r c s : Int) : Res (Mat α) :=
  if r > m.rows then .exit 1
  else if r < 1 then .exit 1
  else if c > m.cols then .exit 1
  else if c < 1 then .exit 1
  else if s > m.shel then .exit 1
  else if s < 1 then .exit 1
  else do
    let b ← m.elem.write (m.index r c s) v
    .ok { m with elem := b }

/-- matrix.cpp:699 `get_elem()`. -/
def getElem0 (m : Mat α) : Res α := m.elem.read 0

/-- matrix.cpp:701-712 `get_elem(r)`. -/
def getElem1 (m : Mat α) (r : Int) : Res α :=
  if r < 1 then .exit 1
  else if r > m.rows then .exit 1
  else m.elem.read (m.index r 1 1)

/-- matrix.cpp:714-733 `get_elem(r, c)`. -/
def getElem2 (m : Mat α) (r c : Int) : Res α :=
  if r < 1 then .exit 1
  else if r > m.rows then .exit 1
  else if c < 1 then .exit 1
  else if c > m.cols then .exit 1
  else m.elem.read (m.index r c 1)

/-- matrix.cpp:739-769 `get_elem(r, c, s)`. -/
def getElem3 (m : Mat α) (r c s : Int) : Res α :=
  if r < 1 then .exit 1
  else if r > m.rows then .exit 1
  else if c < 1 then .exit 1
  else if c > m.cols then .exit 1
  else if s < 1 then .exit 1
  else if s > m.shel then .exit 1
  else m.elem.read (m.index r c s)

/-- matrix.cpp:697 `total_elem`. -/
def totalElem (m : Mat α) : Int := m.rows * m.cols * m.shel

/-! ### constructors -/

/-- matrix.cpp:241-247 `Matrix()`. -/
def default [Zero α] : Res (Mat α) := do
  let b ← (Buf.alloc (1 * 1)).write 0 0
  .ok { rows := 1, cols := 1, shel := 1, elem := b }

/-- Loop `for (auto val : v_data) { elem[(r-1)*cols+c-1] = val; ++r; }` with `c = cols = 1`. (matrix.cpp:257-260, 271-274) -/
def ofVecLoop (b : Buf α) (r : Int) : List α → Res (Buf α)
  | [] => .ok b
  | v :: vs => do
    let b ← b.write ((r - 1) * 1 + 1 - 1) v
    ofVecLoop b (r + 1) vs

/-- matrix.cpp:249-261 `Matrix(vector<double>)`. `Matrix(vector<int>)` (263-275) is the same after the
conversion `static_cast<double>` of each entry; see `ofIntVec`. -/
def ofVec (v : List α) : Res (Mat α) := do
  let rows : Int := v.length
  let b ← ofVecLoop (Buf.alloc (rows * 1)) 1 v
  .ok { rows := rows, cols := 1, shel := 1, elem := b }

/-- matrix.cpp:263-275 `Matrix(vector<int>)`; `cast` is the conversion from `int` to `double`. -/
def ofIntVec (cast : Int → α) (v : List Int) : Res (Mat α) := do
  let rows : Int := v.length
  let b ← ofVecLoop (Buf.alloc (rows * 1)) 1 (v.map cast)
  .ok { rows := rows, cols := 1, shel := 1, elem := b }

/-- Inner loop of matrix.cpp:292-295. -/
def ofVecVecInner (cols r : Int) (b : Buf α) (c : Int) : List α → Res (Buf α)
  | [] => .ok b
  | v :: vs => do
    let b ← b.write ((r - 1) * cols + c - 1) v
    ofVecVecInner cols r b (c + 1) vs

/-- Outer loop of matrix.cpp:285-297. -/
def ofVecVecLoop (cols : Int) (b : Buf α) (r : Int) : List (List α) → Res (Buf α)
  | [] => .ok b
  | v :: vs =>
    if (v.length : Int) ≠ cols then .throw .invalidArgument
    else do
      let b ← ofVecVecInner cols r b 1 v
      ofVecVecLoop cols b (r + 1) vs

/-- matrix.cpp:277-298 `Matrix(vector<vector<double>>)`. -/
def ofVecVec (vv : List (List α)) : Res (Mat α) := do
  let rows : Int := vv.length
  let v0 ← vecAt vv 0
  let cols : Int := v0.length
  let b ← ofVecVecLoop cols (Buf.alloc (rows * cols)) 1 vv
  .ok { rows := rows, cols := cols, shel := 1, elem := b }

/-- matrix.cpp:300-321 `Matrix(int r)`. -/
def mk1 [Zero α] (r : Int) : Res (Mat α) :=
  if r < 0 then .exit 1
  else if r = 0 then .ok { rows := 0, cols := 0, shel := 0, elem := [] }
  else do
    let b ← forRange 1 r (Buf.alloc r) fun b i => b.write (i - 1) 0
    .ok { rows := r, cols := 1, shel := 1, elem := b }

/-- matrix.cpp:323-340 `Matrix(int r, int c)`. -/
def mk2 [Zero α] (r c : Int) : Res (Mat α) :=
  if r < 1 then .exit 1
  else if c < 1 then .exit 1
  else do
    let b ← forRange 1 r (Buf.alloc (r * c)) fun b i =>
      forRange 1 c b fun b j => b.write ((i - 1) * c + j - 1) 0
    .ok { rows := r, cols := c, shel := 1, elem := b }

/-- matrix.cpp:342-364 `Matrix(int r, int c, int s)`. -/
def mk3 [Zero α] (r c s : Int) : Res (Mat α) :=
  if r < 1 then .exit 1
  else if c < 1 then .exit 1
  else if s < 1 then .exit 1
  else do
    let b ← forRange 1 r (Buf.alloc (r * c * s)) fun b i =>
      forRange 1 c b fun b j =>
        forRange 1 s b fun b k => b.write ((i - 1) * c * s + (j - 1) * s + k - 1) 0
    .ok { rows := r, cols := c, shel := s, elem := b }

/-! ### resize and assignment -/

/-- matrix.cpp:366-426 `Matrix::resize(r, c)`, including all of its case distinctions. -/
def resize [Zero α] (m : Mat α) (r c : Int) : Res (Mat α) :=
  if r < 1 then .exit 1
  else if c < 1 then .exit 1
  else do
    let temp : Buf α := Buf.alloc (r * c)
    let pos (i j : Int) : Int := (i - 1) * c * 1 + (j - 1) * 1 + 1 - 1
    let copy (temp : Buf α) (i j : Int) : Res (Buf α) := do
      let v ← m.elem.read (m.index i j 1)
      temp.write (pos i j) v
    let zero (temp : Buf α) (i j : Int) : Res (Buf α) := temp.write (pos i j) 0
    let temp ←
      if r ≤ m.rows then
        forRange 1 r temp fun temp i =>
          if c ≤ m.cols then
            forRange 1 c temp fun temp j => copy temp i j
          else
            forRange 1 c temp fun temp j => if j ≤ m.cols then copy temp i j else zero temp i j
      else
        forRange 1 r temp fun temp i =>
          if c ≤ m.cols then
            forRange 1 c temp fun temp j => if i ≤ m.rows then copy temp i j else zero temp i j
          else
            forRange 1 c temp fun temp j =>
              if i ≤ m.rows ∧ j ≤ m.cols then copy temp i j else zero temp i j
    .ok { rows := r, cols := c, shel := 1, elem := temp }

/-- matrix.cpp:428-437 `Matrix::operator=` for distinct objects with distinct buffers (see `Verif.Heap` for
aliasing). `this` is the left-hand side. -/
def assign [Zero α] (this m : Mat α) : Res (Mat α) := do
  let this ← this.resize m.rows m.cols
  forRange 1 m.rows this fun this i =>
    forRange 1 m.cols this fun this j => do
      let v ← m.getElem2 i j
      this.setElem2 v i j

/-! ### rows and columns -/

/-- matrix.cpp:443-456 `set_row`. (When `throw` is returned nothing has been written; the check is first.) -/
def setRow [Zero α] (m : Mat α) (row : List α) (r : Int) : Res (Mat α) :=
  if m.cols ≠ row.length then .throw .invalidArgument
  else
    forRange 1 m.cols m fun m j =>
      if r ≤ m.rows then do
        let v ← vecAt row (j - 1)
        let b ← m.elem.write (m.index r j 1) v
        .ok { m with elem := b }
      else do
        let b ← m.elem.write (m.index r j 1) 0
        .ok { m with elem := b }

/-- matrix.cpp:458-470 `set_col`. Note that the size is compared with `get_cols()`, as in the code. -/
def setCol [Zero α] (m : Mat α) (col : List α) (c : Int) : Res (Mat α) :=
  if m.cols ≠ col.length then .throw .invalidArgument
  else
    forRange 1 m.rows m fun m i =>
      if c ≤ m.cols then do
        let v ← vecAt col (i - 1)
        let b ← m.elem.write (m.index i c 1) v
        .ok { m with elem := b }
      else do
        let b ← m.elem.write (m.index i c 1) 0
        .ok { m with elem := b }

/-- matrix.cpp:512-518 `get_col`. -/
def getColVec (m : Mat α) (c : Int) : Res (List α) :=
  forRange 1 m.rows [] fun acc i => do
    let v ← m.elem.read (m.index i c 1)
    .ok (acc ++ [v])

/-- matrix.cpp:520-526 `get_row`. -/
def getRowVec (m : Mat α) (r : Int) : Res (List α) :=
  forRange 1 m.cols [] fun acc i => do
    let v ← m.elem.read (m.index r i 1)
    .ok (acc ++ [v])

/-- Common shape of the copying loops of `set_rows`, `set_cols`, `set_shel`: `temp[index(i,j,k)]` with the index
computed from the *old* dimensions of `m`. (matrix.cpp:479-508, 536-565, 576-605) -/
def regrowLoop [Zero α] (m : Mat α) (temp : Buf α) (r c s : Int) (keep : Bool) : Res (Buf α) :=
  forRange 1 r temp fun temp i =>
    forRange 1 c temp fun temp j =>
      forRange 1 s temp fun temp k =>
        if keep then do
          let v ← m.elem.read (m.index i j k)
          temp.write (m.index i j k) v
        else temp.write (m.index i j k) 0

/-- matrix.cpp:472-510 `set_rows`. The test inside the growing loop is `r <= rows` (483), which is false there. -/
def setRows [Zero α] (m : Mat α) (r : Int) : Res (Mat α) :=
  if r < 0 then .exit 1
  else if r > m.rows then do
    let b ← m.regrowLoop (Buf.alloc (r * m.cols * m.shel)) r m.cols m.shel (decide (r ≤ m.rows))
    .ok { m with rows := r, elem := b }
  else if r < m.rows then do
    let b ← m.regrowLoop (Buf.alloc (r * m.cols * m.shel)) r m.cols m.shel true
    .ok { m with rows := r, elem := b }
  else .ok m

/-- matrix.cpp:528-567 `set_cols`. -/
def setCols [Zero α] (m : Mat α) (c : Int) : Res (Mat α) :=
  if c < 0 then .exit 1
  else if c > m.cols then do
    let b ← m.regrowLoop (Buf.alloc (m.rows * c * m.shel)) m.rows c m.shel (decide (c ≤ m.cols))
    .ok { m with cols := c, elem := b }
  else if c < m.cols then do
    let b ← m.regrowLoop (Buf.alloc (m.rows * c * m.shel)) m.rows c m.shel true
    .ok { m with cols := c, elem := b }
  else .ok m

/-- matrix.cpp:569-607 `set_shel`. -/
def setShel [Zero α] (m : Mat α) (s : Int) : Res (Mat α) :=
  if s < 0 then .exit 1
  else if s > m.shel then do
    let b ← m.regrowLoop (Buf.alloc (m.rows * m.cols * s)) m.rows m.cols s (decide (s ≤ m.shel))
    .ok { m with shel := s, elem := b }
  else if s < m.shel then do
    let b ← m.regrowLoop (Buf.alloc (m.rows * m.cols * s)) m.rows m.cols s true
    .ok { m with shel := s, elem := b }
  else .ok m

/-- matrix.cpp:771-778 `swap_row`. -/
def swapRow [Zero α] (m : Mat α) (rFrom rTo : Int) : Res (Mat α) :=
  if rFrom = rTo then .ok m
  else do
    let rowF ← m.getRowVec rFrom
    let rowT ← m.getRowVec rTo
    let m ← m.setRow rowF rTo
    m.setRow rowT rFrom

/-- matrix.cpp:780-787 `swap_col`. -/
def swapCol [Zero α] (m : Mat α) (cFrom cTo : Int) : Res (Mat α) :=
  if cFrom = cTo then .ok m
  else do
    let colF ← m.getColVec cFrom
    let colT ← m.getColVec cTo
    let m ← m.setCol colF cTo
    m.setCol colT cFrom

/-- matrix.cpp:789-811 `move_row`. -/
def moveRow [Zero α] (m : Mat α) (rFrom rTo : Int) : Res (Mat α) :=
  if rFrom = rTo then .ok m
  else do
    let row ← m.getRowVec rFrom
    let m ←
      if rFrom < rTo then
        forRange rFrom (rTo - 1) m fun m r =>
          forRange 1 m.cols m fun m c => do
            let v ← m.getElem2 (r + 1) c
            m.setElem2 v r c
      else
        forDown rFrom (rTo + 1) m fun m r =>
          forRange 1 m.cols m fun m c => do
            let v ← m.getElem2 (r - 1) c
            m.setElem2 v r c
    m.setRow row rTo

/-- matrix.cpp:813-835 `move_col`. -/
def moveCol [Zero α] (m : Mat α) (cFrom cTo : Int) : Res (Mat α) :=
  if cFrom = cTo then .ok m
  else do
    let col ← m.getColVec cFrom
    let m ←
      if cFrom < cTo then
        forRange cFrom (cTo - 1) m fun m c =>
          forRange 1 m.rows m fun m r => do
            let v ← m.getElem2 r (c + 1)
            m.setElem2 v r c
      else
        forDown cFrom (cTo + 1) m fun m c =>
          forRange 1 m.rows m fun m r => do
            let v ← m.getElem2 r (c - 1)
            m.setElem2 v r c
    m.setCol col cTo

/-- matrix.cpp:893-909 `invert` (transposition). -/
def invert [Zero α] (m : Mat α) : Res (Mat α) :=
  if m.shel ≠ 1 then .exit 1
  else do
    let m2 ← mk2 m.cols m.rows
    forRange 1 m.rows m2 fun m2 i =>
      forRange 1 m.cols m2 fun m2 j => do
        let v ← m.getElem2 i j
        m2.setElem2 v j i

/-- matrix.cpp:911-928 `getRow`. -/
def getRow [Zero α] (m : Mat α) (R : Int) : Res (Mat α) :=
  if m.rows < R then .exit 1
  else do
    let m2 ← mk3 1 m.cols m.shel
    forRange 1 m.cols m2 fun m2 j =>
      forRange 1 m.shel m2 fun m2 k => do
        let v ← m.getElem3 R j k
        m2.setElem3 v 1 j k

/-- matrix.cpp:930-946 `getCol`. Note `mat2(this->get_cols(), 1, ...)`, as in the code (line 937). -/
def getCol [Zero α] (m : Mat α) (C : Int) : Res (Mat α) :=
  if m.cols < C then .exit 1
  else do
    let m2 ← mk3 m.cols 1 m.shel
    forRange 1 m.rows m2 fun m2 i =>
      forRange 1 m.shel m2 fun m2 k => do
        let v ← m.getElem3 i C k
        m2.setElem3 v i 1 k

/-! ### matching -/

/-- The innermost loop with `break` of matrix.cpp:851-858 / 879-886: do the printed values agree for
all `j` of the list? `f j` and `g j` are the two `get_elem` calls. -/
def allMatch {β : Type} [DecidableEq β] (tos : α → β) (f g : Int → Res α) : List Int → Res Bool
  | [] => .ok true
  | j :: js => do
    let a ← f j
    let b ← g j
    if tos a ≠ tos b then .ok false
    else allMatch tos f g js

/-- `m_vec.at(i - 1) = ii` (throws when out of range). (matrix.cpp:859, 887) -/
def vecSet {β : Type} (l : List β) (i : Int) (v : β) : Res (List β) :=
  if 0 ≤ i ∧ i < l.length then .ok (l.set i.toNat v) else .throw .outOfRange

/-- matrix.cpp:837-863 `matchRow`. `tos` stands for `double_tos(·, sf)` (matrix.cpp:171-176) composed with
string comparison: any function into a type with decidable equality. -/
def matchRow {β : Type} [DecidableEq β] (tos : α → β) (m mat : Mat α) : Res (List Int) :=
  if mat.shel ≠ 1 ∨ m.shel ≠ 1 then .exit 1
  else if mat.cols ≠ m.cols then .throw .invalidArgument
  else
    forRange 1 m.rows (List.replicate m.rows.toNat (-1)) fun vec i =>
      forRange 1 mat.rows vec fun vec ii => do
        let ok ← allMatch tos (fun j => m.getElem2 i j) (fun j => mat.getElem2 ii j) (irange 1 m.cols)
        if ok then vecSet vec (i - 1) ii else .ok vec

/-- matrix.cpp:865-891 `matchCol`. -/
def matchCol {β : Type} [DecidableEq β] (tos : α → β) (m mat : Mat α) : Res (List Int) :=
  if mat.shel ≠ 1 ∨ m.shel ≠ 1 then .exit 1
  else if mat.rows ≠ m.rows then .throw .invalidArgument
  else
    forRange 1 m.cols (List.replicate m.cols.toNat (-1)) fun vec i =>
      forRange 1 mat.cols vec fun vec ii => do
        let ok ← allMatch tos (fun j => m.getElem2 j i) (fun j => mat.getElem2 j ii) (irange 1 m.rows)
        if ok then vecSet vec (i - 1) ii else .ok vec

/-! ### free functions -/

/-- matrix.cpp:17-48 `Matrix_diag`. -/
def diag [Zero α] (m : Mat α) : Res (Mat α) :=
  if m.cols > 1 ∧ m.rows > 1 then .throw .invalidArgument
  else if m.shel > 1 then .throw .invalidArgument
  else if m.cols > m.rows then do
    let len := m.cols
    let m2 ← mk2 len len
    forRange 1 len m2 fun m2 i => do
      let v ← m.getElem2 1 i
      m2.setElem2 v i i
  else do
    let len := m.rows
    let m2 ← mk2 len len
    forRange 1 len m2 fun m2 i => do
      let v ← m.getElem2 i 1
      m2.setElem2 v i i

/-- matrix.cpp:50-69 `Matrix_copy`. -/
def copy [Zero α] (m : Mat α) : Res (Mat α) := do
  let m2 ← mk3 m.rows m.cols m.shel
  forRange 1 m.rows m2 fun m2 i =>
    forRange 1 m.cols m2 fun m2 j =>
      forRange 1 m.shel m2 fun m2 k => do
        let v ← m.getElem3 i j k
        m2.setElem3 v i j k

/-- matrix.cpp:71-119 `Matrix_concatenate_rows`. -/
def concatRows [Zero α] (m1 m2 : Mat α) : Res (Mat α) :=
  if m1.cols ≠ m2.cols then default
  else if m1.shel ≠ m2.shel then default
  else do
    let rows1 := m1.rows
    let total := rows1 + m2.rows
    let m3 ← mk3 total m1.cols m1.shel
    let m3 ← forRange 1 m1.rows m3 fun m3 i =>
      forRange 1 m1.cols m3 fun m3 j =>
        forRange 1 m1.shel m3 fun m3 k => do
          let v ← m1.getElem3 i j k
          m3.setElem3 v i j k
    forRange 1 m2.rows m3 fun m3 i =>
      forRange 1 m2.cols m3 fun m3 j =>
        forRange 1 m2.shel m3 fun m3 k => do
          let v ← m2.getElem3 i j k
          m3.setElem3 v (i + rows1) j k

/-- matrix.cpp:121-169 `Matrix_concatenate_cols`. -/
def concatCols [Zero α] (m1 m2 : Mat α) : Res (Mat α) :=
  if m1.rows ≠ m2.rows then default
  else if m1.shel ≠ m2.shel then default
  else do
    let cols1 := m1.cols
    let total := cols1 + m2.cols
    let m3 ← mk3 m1.rows total m1.shel
    let m3 ← forRange 1 m1.rows m3 fun m3 i =>
      forRange 1 m1.cols m3 fun m3 j =>
        forRange 1 m1.shel m3 fun m3 k => do
          let v ← m1.getElem3 i j k
          m3.setElem3 v i j k
    forRange 1 m2.rows m3 fun m3 i =>
      forRange 1 m2.cols m3 fun m3 j =>
        forRange 1 m2.shel m3 fun m3 k => do
          let v ← m2.getElem3 i j k
          m3.setElem3 v i (j + cols1) k

/-- matrix.cpp:204-235 `operator*`. -/
def mul [Zero α] [Add α] [Mul α] (m1 m2 : Mat α) : Res (Mat α) :=
  if m1.shel ≠ 1 ∨ m2.shel ≠ 1 then .exit 1
  else if m1.cols ≠ m2.rows then .exit 1
  else do
    let m3 ← mk2 m1.rows m2.cols
    forRange 1 m1.rows m3 fun m3 i =>
      forRange 1 m2.cols m3 fun m3 j => do
        let sum ← forRange 1 m1.cols (0 : α) fun sum k => do
          let a ← m1.getElem2 i k
          let b ← m2.getElem2 k j
          .ok (sum + a * b)
        m3.setElem2 sum i j

end Mat
end Verif
