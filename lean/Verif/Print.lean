import Verif.Matrix
import Verif.Maps
/-
Model of `operator<<(ostream&, Matrix&)` (matrix.cpp:178-202) and of `get_elem_ptr` (matrix.cpp:735-737).
-/
namespace Verif.Mat
variable {α : Type}

/-- matrix.cpp:178-202 `operator<<`. `print` is `operator<<(ostream&, double)`; the stream's text is passed along. -/
def printText (print : α → Str) (m : Mat α) : Res Str := do
  let out := (lit "Matrix Attributes\n") ++ (lit "rows ") ++ intToStr m.rows ++ (lit "\ncols ") ++ intToStr m.cols ++
    (lit "\nshel ") ++ intToStr m.shel
  forRange 1 m.shel out fun out k => do
    let out := out ++ (lit "\nShelf ") ++ intToStr k ++ (lit "\n\t")
    let out ← forRange 1 m.cols out fun out j => .ok (out ++ (lit "Col ") ++ intToStr j ++ (lit "\t"))
    let out := out ++ (lit "\n")
    forRange 1 m.rows out fun out i => do
      let out := out ++ (lit "Row ") ++ intToStr i ++ (lit "\t")
      let out ← forRange 1 m.cols out fun out j => do
        let v ← m.getElem2 i j
        .ok (out ++ print v ++ (lit "\t"))
      .ok (out ++ (lit "\n"))

/-- matrix.cpp:735-737 `get_elem_ptr(r, c)`: the position pointed to, relative to `elem`. No check is made. -/
def getElemPtr (m : Mat α) (r c : Int) : Int := m.index r c 1

/-- Reading `*get_elem_ptr(r, c)`. (a use of matrix.cpp:735-737) -/
def readPtr (m : Mat α) (r c : Int) : Res α := m.elem.read (m.getElemPtr r c)

/-- Writing `*get_elem_ptr(r, c) = v`. (a use of matrix.cpp:735-737) -/
def writePtr (m : Mat α) (v : α) (r c : Int) : Res (Mat α) := do
  let b ← m.elem.write (m.getElemPtr r c) v
  .ok { m with elem := b }

end Verif.Mat
