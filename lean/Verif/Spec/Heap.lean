import Verif.Heap
/-
Specification for C07 (matrices as independent values, one per object, no sharing) and for C108 (copies as several names
of one matrix).
-/
namespace Verif.Heap
variable {α : Type}

/-! ### which function each statement calls -/

/-- The matrix a constructor makes. -/
def Build.value [Zero α] : Build α → Res (Mat α)
  | .default => Mat.default
  | .ofVec v => Mat.ofVec v
  | .ofVecVec vv => Mat.ofVecVec vv
  | .mk1 r => Mat.mk1 r
  | .mk2 r c => Mat.mk2 r c
  | .mk3 r c s => Mat.mk3 r c s

/-- What the object is after the call, when it was `m` before and is not shared. -/
def InPlace.value [Zero α] (f : InPlace α) (m : Mat α) : Res (Mat α) :=
  match f with
  | .setElem0 v => m.setElem0 v
  | .setElem1 v r => m.setElem1 v r
  | .setElem2 v r c => m.setElem2 v r c
  | .setElem3 v r c s => m.setElem3 v r c s
  | .setRow v r => m.setRow v r
  | .setCol v c => m.setCol v c
  | .swapRow a b => m.swapRow a b
  | .swapCol a b => m.swapCol a b
  | .moveRow a b => m.moveRow a b
  | .moveCol a b => m.moveCol a b

/-- What the object is after the call, when it was `m` before and is not shared. -/
def Realloc.value [Zero α] (f : Realloc) (m : Mat α) : Res (Mat α) :=
  match f with
  | .resize r c => m.resize r c
  | .setRows r => m.setRows r
  | .setCols c => m.setCols c
  | .setShel s => m.setShel s

/-- The matrix returned. -/
def Derive.value [Zero α] (f : Derive) (m : Mat α) : Res (Mat α) :=
  match f with
  | .copy => m.copy
  | .invert => m.invert
  | .diag => m.diag
  | .getRow r => m.getRow r
  | .getCol c => m.getCol c

/-- The matrix returned. -/
def Combine.value [Zero α] [Add α] [Mul α] (f : Combine) (a b : Mat α) : Res (Mat α) :=
  match f with
  | .concatRows => a.concatRows b
  | .concatCols => a.concatCols b
  | .mul => a.mul b

/-! ### independent values -/

/-- The value-semantics reading of a statement: each object is its own matrix. -/
def valStep [Zero α] [Add α] [Mul α] (vs : List (Mat α)) : Op α → Res (List (Mat α))
  | .construct b => do
    let m ← b.value
    .ok (vs ++ [m])
  | .copyCtor i => match vs[i]? with
    | none => .ub
    | some m => .ok (vs ++ [m])
  | .derive i d => match vs[i]? with
    | none => .ub
    | some m => do
      let m' ← d.value m
      .ok (vs ++ [m'])
  | .combine i j f => match vs[i]?, vs[j]? with
    | some mi, some mj => do
      let m' ← f.value mi mj
      .ok (vs ++ [m'])
    | _, _ => .ub
  | .inPlace i f => match vs[i]? with
    | none => .ub
    | some m => do
      let m' ← f.value m
      .ok (vs.set i m')
  | .realloc i f => match vs[i]? with
    | none => .ub
    | some m => do
      let m' ← f.value m
      .ok (vs.set i m')
  | .assign i j => match vs[j]?, vs[i]? with
    | some mj, some mi => do
      let mi' ← mi.assign mj
      .ok (vs.set i mi')
    | _, _ => .ub

/-- Run a program on values. -/
def valRun [Zero α] [Add α] [Mul α] (ops : List (Op α)) : Res (List (Mat α)) := ops.foldlM valStep []

/-- The statements that do not copy-construct (and assign only between different objects). -/
def Op.noSharing : Op α → Prop
  | .copyCtor _ => False
  | .assign i j => i ≠ j
  | _ => True

/-! ### several names of one matrix (C108) -/

/-- What a program sees of its matrices: their values, which objects are two names of one matrix, which objects have lost
their numbers, and which never had any (`Matrix(0)`). -/
structure World (α : Type) where
  vals : List (Mat α)
  same : Nat → Nat → Bool
  lost : Nat → Bool
  empty : Nat → Bool

/-- `Matrix(0)`. -/
def Build.isEmpty : Build α → Bool
  | .mk1 r => r == 0
  | _ => false

/-- A new object, with a matrix of its own. -/
def World.add (w : World α) (m : Mat α) (isEmpty : Bool) : World α :=
  { w with vals := w.vals ++ [m], empty := fun a => if a = w.vals.length then isEmpty else w.empty a }

/-- A new object that is another name of object `i`. -/
def World.alias (w : World α) (i : Nat) (m : Mat α) : World α :=
  let old := fun a => if a = w.vals.length then i else a
  { vals := w.vals ++ [m], same := fun a b => w.same (old a) (old b), lost := fun a => w.lost (old a),
    empty := fun a => w.empty (old a) }

/-- A write to object `i`: every name of the matrix shows it. -/
def World.write (w : World α) (i : Nat) (m : Mat α) : World α :=
  { w with vals := w.vals.mapIdx fun a v => if w.same i a then m else v }

/-- Object `i` gets new storage: it has a matrix of its own, and all other names of its old matrix have lost theirs. -/
def World.renew (w : World α) (i : Nat) (m : Mat α) : World α :=
  { vals := w.vals.mapIdx fun a v => if a = i then m else if w.same i a then { v with elem := [] } else v
    same := fun a b => if a = i ∨ b = i then decide (a = b) else w.same a b
    lost := fun a => decide (a ≠ i) && (w.lost a || (w.same i a && !w.empty i))
    empty := fun a => decide (a ≠ i) && w.empty a }

/-- Whether the call gives the object new storage: `resize` always, the others when the dimension changes. -/
def Realloc.renews (f : Realloc) (m : Mat α) : Prop :=
  match f with
  | .resize _ _ => True
  | .setRows r => r ≠ m.rows
  | .setCols c => c ≠ m.cols
  | .setShel s => s ≠ m.shel

instance (f : Realloc) (m : Mat α) : Decidable (f.renews m) := by
  cases f <;> unfold Realloc.renews <;> infer_instance

/-- A write statement on object `i`. -/
def World.doWrite [Zero α] (w : World α) (i : Nat) (f : InPlace α) : Res (World α) :=
  match w.vals[i]? with
  | none => .ub
  | some m => do
    let m' ← f.value m
    .ok (w.write i m')

/-- New storage for object `i`; an object that has lost its numbers cannot be resized (the storage would be deleted
twice). -/
def World.doRenew (w : World α) (i : Nat) (m : Mat α) : Res (World α) :=
  if w.lost i then .ub else .ok (w.renew i m)

/-- The reading of a statement when a copy is another name of the original. -/
def World.step [Zero α] [Add α] [Mul α] (w : World α) : Op α → Res (World α)
  | .construct b => do
    let m ← b.value
    .ok (w.add m b.isEmpty)
  | .copyCtor i => match w.vals[i]? with
    | none => .ub
    | some m => .ok (w.alias i m)
  | .derive i d => match w.vals[i]? with
    | none => .ub
    | some m => do
      let m' ← d.value m
      .ok (w.add m' false)
  | .combine i j f => match w.vals[i]?, w.vals[j]? with
    | some mi, some mj => do
      let m' ← f.value mi mj
      .ok (w.add m' false)
    | _, _ => .ub
  | .inPlace i f => w.doWrite i f
  | .realloc i f => match w.vals[i]? with
    | none => .ub
    | some m => do
      let m' ← f.value m
      if f.renews m then w.doRenew i m' else .ok w
  -- resize to the dimensions of the right-hand side, then copy element by element
  | .assign i j => match w.vals[i]?, w.vals[j]? with
    | some mi, some mj => do
      let m' ← mi.resize mj.rows mj.cols
      let w ← w.doRenew i m'
      (irange 1 mj.rows).foldlM (fun w r => (irange 1 mj.cols).foldlM (fun w c =>
        match w.vals[j]? with
        | none => .ub
        | some src => do
          let v ← src.getElem2 r c
          w.doWrite i (.setElem2 v r c)) w) w
    | _, _ => .ub

/-- The statement may give object `a` new storage. -/
def Op.mayRenew (op : Op α) (a : Nat) : Prop :=
  match op with
  | .realloc i _ => i = a
  | .assign i _ => i = a
  | _ => False

/-- Run a program on names. -/
def World.run [Zero α] [Add α] [Mul α] (ops : List (Op α)) : Res (World α) :=
  ops.foldlM World.step ⟨[], fun a b => decide (a = b), fun _ => false, fun _ => false⟩

end Verif.Heap
