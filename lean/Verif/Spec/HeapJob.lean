import Verif.HeapJob
/-
Specification vocabulary for C129 and C130: objects, the storage they point to, and how much of it there is.
-/
namespace Verif.Heap
variable {α : Type}

/-- Every matrix object has storage that was not deleted. (Two objects may share it.) -/
def Sound (st : St α) : Prop := ∀ o ∈ st.objs, ∃ numbers, st.heap[o.ptr]? = some (.live numbers)

/-- Object number `i` is the matrix `m`. -/
def Is (st : St α) (i : Nat) (m : Mat α) : Prop := ∃ o, st.objs[i]? = some o ∧ denote st.heap o = m

/-- Every object there was is the matrix it was. -/
def Keeps (st st' : St α) : Prop := ∀ i m, Is st i m → Is st' i m

/-- How many blocks of storage were allocated for matrices so far. -/
def allocated (st : St α) : Nat := st.heap.length

/-- How many of them were deleted. -/
def deleted (st : St α) : Nat := st.heap.countP fun c => match c with | .freed => true | _ => false

/-- The five pointers of a `TransferComplex` are to these matrices, and the rest of it is the same. -/
structure IsComplex (st : St α) (T : Complex) (V : QC.TransferComplex α) : Prop where
  coef1 : Is st T.coef1 V.coef1
  coef2 : Is st T.coef2 V.coef2
  coefP : Is st T.coefP V.coefP
  S : Is st T.S V.S
  oe : Is st T.oe V.oe
  orbs1 : T.orbs1 = V.orbs1
  orbs2 : T.orbs2 = V.orbs2
  unscrambled : T.unscrambled = V.unscrambled
  cp : T.cp = V.cp

end Verif.Heap
