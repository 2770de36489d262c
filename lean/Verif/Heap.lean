import Verif.Matrix
/-
The `Matrix` objects of a program together with the heap buffers they point to. `Verif.Matrix` models each member
function on the value an object denotes; here objects share a heap, so that the implicitly generated copy constructor
(matrix.hpp:9-98 declares none, and no destructor) can be modelled as what it is: a copy of the pointer.
-/
namespace Verif.Heap
variable {α : Type}

/-- matrix.hpp:11-14, one `Matrix` object: three ints and a pointer (the number of the buffer). -/
structure Obj where
  rows : Int
  cols : Int
  shel : Int
  ptr : Nat
deriving DecidableEq, Repr

/-- What a pointer refers to: a live buffer, a buffer that was deleted, or (null pointer, matrix.cpp:310) nothing. -/
inductive Cell (α : Type)
  | live (b : Buf α)
  | freed
  | null
deriving DecidableEq, Repr

/-- The cells that can be read or written through the pointer. Through a pointer to a deleted buffer or through the null
pointer there are none: every access that passes the bounds checks is `ub`, as with an empty buffer. (matrix.hpp:14) -/
def Cell.buf : Cell α → Buf α
  | .live b => b
  | .freed => []
  | .null => []

/-- All `Matrix` objects of the program, and the heap: pointer number `n` refers to `heap[n]`. (matrix.hpp:9-14) -/
structure St (α : Type) where
  objs : List Obj
  heap : List (Cell α)
deriving DecidableEq, Repr

/-- The matrix an object denotes. (matrix.hpp:9-14) -/
def denote (heap : List (Cell α)) (o : Obj) : Mat α :=
  { rows := o.rows, cols := o.cols, shel := o.shel, elem := (heap[o.ptr]?.map Cell.buf).getD [] }

/-- All objects of the program, as matrices. (matrix.hpp:9-14) -/
def St.views (st : St α) : List (Mat α) := st.objs.map (denote st.heap)

/-- Object number `i` (naming an object that was never constructed is not a C++ program; `ub`). (matrix.hpp:9-14) -/
def St.view (st : St α) (i : Nat) : Res (Mat α) :=
  match st.objs[i]? with
  | none => .ub
  | some o => .ok (denote st.heap o)

/-- Store the effect of a member function that wrote through `elem` of object `i`. (A call that completes on a deleted or
null buffer wrote nothing.) (matrix.cpp:443-470, 609-689, 771-835) -/
def St.store (st : St α) (i : Nat) (m : Mat α) : Res (St α) :=
  match st.objs[i]? with
  | none => .ub
  | some o =>
    .ok { objs := st.objs.set i ⟨m.rows, m.cols, m.shel, o.ptr⟩,
          heap := match st.heap[o.ptr]? with
            | some (.live _) => st.heap.set o.ptr (.live m.elem)
            | _ => st.heap }

/-- Store the effect of a member function that ends with `delete elem; elem = temp` on object `i`. Deleting twice is
`ub`; deleting the null pointer does nothing. (matrix.cpp:419-423, 506-508, 563-565, 603-605) -/
def St.realloc (st : St α) (i : Nat) (m : Mat α) : Res (St α) :=
  match st.objs[i]? with
  | none => .ub
  | some o =>
    match st.heap[o.ptr]? with
    | some (.live _) =>
      .ok { objs := st.objs.set i ⟨m.rows, m.cols, m.shel, st.heap.length⟩,
            heap := st.heap.set o.ptr .freed ++ [.live m.elem] }
    | some .null =>
      .ok { objs := st.objs.set i ⟨m.rows, m.cols, m.shel, st.heap.length⟩, heap := st.heap ++ [.live m.elem] }
    | _ => .ub

/-- Construct a new object with its own buffer (or with the null pointer). (matrix.cpp:241-364) -/
def St.fresh (st : St α) (m : Mat α) (null : Bool) : St α :=
  { objs := st.objs ++ [⟨m.rows, m.cols, m.shel, st.heap.length⟩],
    heap := st.heap ++ [if null then .null else .live m.elem] }

/-- matrix.hpp:9-98: `Matrix b(a)`, passing a `Matrix` by value, `std::vector<Matrix>` copies: memberwise copy. -/
def St.copyCtor (st : St α) (i : Nat) : Res (St α) :=
  match st.objs[i]? with
  | none => .ub
  | some o => .ok { st with objs := st.objs ++ [o] }

/-- Constructors. (matrix.cpp:241-364) -/
inductive Build (α : Type)
  | default
  | ofVec (v : List α)
  | ofVecVec (vv : List (List α))
  | mk1 (r : Int)
  | mk2 (r c : Int)
  | mk3 (r c s : Int)

/-- matrix.cpp:241-261, 277-364. (`Matrix(vector<int>)`, 263-275, is `ofVec` of the converted numbers.) The vector of
vectors constructor allocates twice (281-282) and loses the first buffer; nothing refers to it. -/
def Build.run [Zero α] : Build α → Res (Mat α)
  | .default => Mat.default
  | .ofVec v => Mat.ofVec v
  | .ofVecVec vv => Mat.ofVecVec vv
  | .mk1 r => Mat.mk1 r
  | .mk2 r c => Mat.mk2 r c
  | .mk3 r c s => Mat.mk3 r c s

/-- matrix.cpp:306-310: `Matrix(0)` has a null pointer. -/
def Build.null : Build α → Bool
  | .mk1 r => decide (r = 0)
  | _ => false

/-- Member functions that write through `elem` and keep the buffer. (matrix.cpp:443-470, 609-689, 771-835) -/
inductive InPlace (α : Type)
  | setElem0 (v : α)
  | setElem1 (v : α) (r : Int)
  | setElem2 (v : α) (r c : Int)
  | setElem3 (v : α) (r c s : Int)
  | setRow (v : List α) (r : Int)
  | setCol (v : List α) (c : Int)
  | swapRow (a b : Int)
  | swapCol (a b : Int)
  | moveRow (a b : Int)
  | moveCol (a b : Int)

/-- matrix.cpp:443-470, 609-689, 771-835. -/
def InPlace.run [Zero α] (m : Mat α) : InPlace α → Res (Mat α)
  | .setElem0 v => m.setElem0 v
  | .setElem1 v r => m.setElem1 v r
  | .setElem2 v r c => m.setElem2 v r c
  | .setElem3 v r c s => m.setElem3 v r c s
  | .setRow v r => m.setRow v r
  | .setCol v c => m.setCol v c
  | .swapRow a b => m.swapRow a b
  | .swapCol a b => m.swapCol a b
  | .moveRow a b => m.moveRow a b
  | .moveCol a b => m.moveCol a b

/-- Member functions that may replace the buffer. (matrix.cpp:366-426, 472-510, 528-607) -/
inductive Realloc
  | resize (r c : Int)
  | setRows (r : Int)
  | setCols (c : Int)
  | setShel (s : Int)

/-- matrix.cpp:366-426, 472-510, 528-607. -/
def Realloc.run [Zero α] (m : Mat α) : Realloc → Res (Mat α)
  | .resize r c => m.resize r c
  | .setRows r => m.setRows r
  | .setCols c => m.setCols c
  | .setShel s => m.setShel s

/-- Whether the call replaces the buffer: `resize` always (419), `set_rows`/`set_cols`/`set_shel` only when the
dimension changes (477, 493, 534, 550, 575, 591). (matrix.cpp:366-426, 472-510, 528-607) -/
def Realloc.replaces (m : Mat α) : Realloc → Bool
  | .resize _ _ => true
  | .setRows r => decide (r ≠ m.rows)
  | .setCols c => decide (c ≠ m.cols)
  | .setShel s => decide (s ≠ m.shel)

/-- Functions that return a new matrix built by a constructor. (matrix.cpp:17-69, 893-946) -/
inductive Derive
  | copy
  | invert
  | diag
  | getRow (r : Int)
  | getCol (c : Int)

/-- matrix.cpp:17-69, 893-946. (`invert` returns `*mat2` by value, 908: the returned object is the only one left that
refers to the buffer.) -/
def Derive.run [Zero α] (m : Mat α) : Derive → Res (Mat α)
  | .copy => m.copy
  | .invert => m.invert
  | .diag => m.diag
  | .getRow r => m.getRow r
  | .getCol c => m.getCol c

/-- Functions of two matrices that return a new matrix. (matrix.cpp:71-169, 204-235) -/
inductive Combine
  | concatRows
  | concatCols
  | mul

/-- matrix.cpp:71-169, 204-235. (`Matrix_concatenate_rows` takes its first argument by value, 71: a copy of the pointer
that is only read and is gone at the end; `operator*` returns a reference to a new object, 234.) -/
def Combine.run [Zero α] [Add α] [Mul α] (a b : Mat α) : Combine → Res (Mat α)
  | .concatRows => a.concatRows b
  | .concatCols => a.concatCols b
  | .mul => a.mul b

/-- One statement of a program using matrices. (matrix.hpp:16-97) -/
inductive Op (α : Type)
  | construct (b : Build α)
  | copyCtor (i : Nat)
  | derive (i : Nat) (d : Derive)
  | combine (i j : Nat) (f : Combine)
  | inPlace (i : Nat) (f : InPlace α)
  | realloc (i : Nat) (f : Realloc)
  | assign (i j : Nat)

/-- matrix.cpp:431-435, the loop of `operator=`: every element read goes through object `j`, every write through
object `i`. -/
def assignLoop (st : St α) (i j : Nat) (rows cols : Int) : Res (St α) :=
  forRange 1 rows st fun st r =>
    forRange 1 cols st fun st c => do
      let mj ← st.view j
      let v ← mj.getElem2 r c
      let mi ← st.view i
      let mi ← mi.setElem2 v r c
      st.store i mi

/-- Execute one statement on objects and heap. (matrix.cpp:17-946, as cited above) -/
def step [Zero α] [Add α] [Mul α] (st : St α) : Op α → Res (St α)
  | .construct b => do
    let m ← b.run
    .ok (st.fresh m b.null)
  | .copyCtor i => st.copyCtor i
  | .derive i d => do
    let m ← st.view i
    let m' ← d.run m
    .ok (st.fresh m' false)
  | .combine i j f => do
    let mi ← st.view i
    let mj ← st.view j
    let m' ← f.run mi mj
    .ok (st.fresh m' false)
  | .inPlace i f => do
    let m ← st.view i
    let m' ← f.run m
    st.store i m'
  | .realloc i f => do
    let m ← st.view i
    let m' ← f.run m
    if f.replaces m then st.realloc i m' else st.store i m'
  | .assign i j => do
    let mj ← st.view j
    let mi ← st.view i
    let mi' ← mi.resize mj.rows mj.cols
    let st ← st.realloc i mi'
    assignLoop st i j mj.rows mj.cols

/-- Execute a program on the empty heap. (matrix.cpp:17-946, as cited above) -/
def run [Zero α] [Add α] [Mul α] (ops : List (Op α)) : Res (St α) := ops.foldlM step ⟨[], []⟩

end Verif.Heap
