import Verif.Matrix
import Verif.Print
import Verif.QC
import Verif.Strings
import Verif.DoubleTos
/-
The repository's own unit tests, run on the model: every assertion of src/tests/test_matrix.cpp, test_qc_functions.cpp and
test_string_support.cpp. They are no proofs of any property; they check that the model and the code the tests were written for agree.
Numbers are rationals here; `(int)(x * 10) == 13` of the tests becomes `x = 13/10`.
-/
namespace Verif.Tests
open Mat

/-- The matrix holds these rows. -/
def holds (m : Mat Rat) (rows : List (List Rat)) : Bool :=
  m.rows = rows.length && m.shel = 1 && rows.all (fun r => m.cols = r.length) &&
  (List.range rows.length).all fun i => (List.range (rows.getD i []).length).all fun j =>
    m.getElem2 (i + 1) (j + 1) = .ok ((rows.getD i []).getD j 0)

/-- A check passes on the result of a computation. -/
def passes {β : Type} (r : Res β) (check : β → Bool) : Bool := match r with | .ok a => check a | _ => false

/-- `set_elem` for each entry. -/
def fill (m : Mat Rat) (l : List (Rat × Int × Int)) : Res (Mat Rat) := l.foldlM (fun m e => m.setElem2 e.1 e.2.1 e.2.2) m

/-! ### test_matrix.cpp -/

/-- test_matrix.cpp:14-32, 58-77: sizes of the matrices made by the constructors and by `set_rows`, `set_cols`, `set_shel`. -/
example : passes (Mat.default (α := Rat)) (fun m => m.rows = 1 ∧ m.cols = 1 ∧ m.shel = 1) = true := by decide +kernel
example : passes (Mat.mk1 (α := Rat) 3) (fun m => holds m [[0], [0], [0]]) = true := by decide +kernel
example : passes (Mat.mk2 (α := Rat) 2 3) (fun m => holds m [[0, 0, 0], [0, 0, 0]]) = true := by decide +kernel
example : passes (Mat.mk3 (α := Rat) 3 1 2) (fun m => m.rows = 3 ∧ m.cols = 1 ∧ m.shel = 2) = true := by decide +kernel
example : passes (Mat.ofVec ([12/10, 3244/10, 23] : List Rat)) (fun m => holds m [[12/10], [3244/10], [23]]) = true := by decide +kernel
example : passes (do let m ← Mat.default (α := Rat); m.setRows 3) (fun m => m.rows = 3 ∧ m.cols = 1 ∧ m.shel = 1) = true := by decide +kernel
example : passes (do let m ← Mat.default (α := Rat); m.setCols 4) (fun m => m.rows = 1 ∧ m.cols = 4 ∧ m.shel = 1) = true := by decide +kernel
example : passes (do let m ← Mat.default (α := Rat); m.setShel 2) (fun m => m.rows = 1 ∧ m.cols = 1 ∧ m.shel = 2) = true := by decide +kernel

/-- test_matrix.cpp:45-52, 79-95: a matrix of vectors, assigned. -/
example : passes (do
    let mat3 ← Mat.ofVecVec ([[12/10, 3244/10, 23], [12/10, -125/10, 23]] : List (List Rat))
    let mat1 ← Mat.default
    mat1.assign mat3) (fun m => holds m [[12/10, 3244/10, 23], [12/10, -125/10, 23]]) = true := by decide +kernel

/-- test_matrix.cpp:96-127: `set_elem` with one to four arguments. -/
example : passes (do let m ← Mat.default (α := Rat); m.setElem0 (54/10)) (fun m => m.getElem0 = .ok (54/10)) = true := by decide +kernel
example : passes (do let m ← Mat.default (α := Rat); let m ← m.setRows 3; m.setElem1 (44/10) 3) (fun m => m.getElem1 3 = .ok (44/10)) = true := by decide +kernel
example : passes (do let m ← Mat.default (α := Rat); let m ← m.setRows 3; let m ← m.setCols 4; m.setElem2 (42/10) 3 4)
    (fun m => m.getElem2 3 4 = .ok (42/10)) = true := by decide +kernel
example : passes (do let m ← Mat.default (α := Rat); let m ← m.setRows 3; let m ← m.setCols 4; let m ← m.setShel 2; m.setElem3 (3/10) 3 4 2)
    (fun m => m.getElem3 3 4 2 = .ok (3/10)) = true := by decide +kernel

def mat4 : Res (Mat Rat) := do let m ← Mat.mk2 2 3; fill m [(5, 1, 1), (3, 1, 2), (1, 1, 3), (2, 2, 2), (1, 2, 3)]

/-- test_matrix.cpp:129-153: the product, then `resize`. -/
example : passes (do
    let mat4 ← mat4
    let mat5 ← Mat.mk2 3 2
    let mat5 ← fill mat5 [(2, 1, 1), (1, 1, 2), (1, 2, 1), (3, 3, 1), (4, 3, 2)]
    mat4.mul mat5) (fun m => holds m [[16, 9], [5, 4]] && passes (m.resize 3 3) (fun m => holds m [[16, 9, 0], [5, 4, 0], [0, 0, 0]])) = true := by decide +kernel

/-- test_matrix.cpp:155-185: `matchRow(mat5, 4)`. -/
example : passes (do
    let mat4 ← mat4
    let mat5 ← Mat.mk2 3 3
    let mat5 ← fill mat5 [(2, 1, 1), (1, 1, 2), (1, 2, 1), (5, 3, 1), (3, 3, 2), (1, 3, 3)]
    mat4.matchRow (id : Rat → Rat) mat5) (fun v => v.getD 0 0 = 3) = true := by decide +kernel

def mat5 : Res (Mat Rat) := do
  let m ← Mat.mk2 3 3
  fill m [(2, 1, 1), (1, 1, 2), (0, 1, 3), (1, 2, 1), (0, 2, 2), (0, 2, 3), (5, 3, 1), (3, 3, 2), (1, 3, 3)]

/-- test_matrix.cpp:187-229: `set_row`, then `set_col`. -/
example : passes (do let m ← mat5; m.setRow [9, 12, 13] 1) (fun m => holds m [[9, 12, 13], [1, 0, 0], [5, 3, 1]] &&
    passes (m.setCol [-12, 23, 101] 2) (fun m => holds m [[9, -12, 13], [1, 23, 0], [5, 101, 1]])) = true := by decide +kernel

/-- test_matrix.cpp:231-295: `move_row` and `move_col` to the front and back again. -/
example : passes (do let m ← mat5; m.moveRow 3 1) (fun m => holds m [[5, 3, 1], [2, 1, 0], [1, 0, 0]] &&
    passes (m.moveCol 3 1) (fun m => holds m [[1, 5, 3], [0, 2, 1], [0, 1, 0]] &&
    passes (m.moveRow 1 3) (fun m => holds m [[0, 2, 1], [0, 1, 0], [1, 5, 3]] &&
    passes (m.moveCol 1 3) (fun m => holds m [[2, 1, 0], [1, 0, 0], [5, 3, 1]])))) = true := by decide +kernel

/-! ### test_qc_functions.cpp -/

def coordA : Res (Mat Rat) := do let m ← Mat.mk2 2 3; fill m [(1, 1, 1), (1, 1, 2), (1, 1, 3)]
def coordB : Res (Mat Rat) := do let m ← Mat.mk2 3 3; fill m [(1, 1, 1), (2, 2, 1), (3, 3, 1)]
def coordDimer : Res (Mat Rat) := do let m ← Mat.mk2 5 3; fill m [(1, 1, 1), (1, 2, 1), (1, 2, 2), (1, 2, 3), (3, 3, 1), (2, 4, 1)]

/-- test_qc_functions.cpp:72-80: the atoms of the monomers in the dimer. -/
example : passes (do let a ← coordA; let d ← coordDimer; a.matchRow (id : Rat → Rat) d) (fun v => v = [2, 5]) = true := by decide +kernel
example : passes (do let b ← coordB; let d ← coordDimer; b.matchRow (id : Rat → Rat) d) (fun v => v = [1, 4, 3]) = true := by decide +kernel

/-- test_qc_functions.cpp:13-147: `unscramble_Coef`. -/
example : passes (do
    let c ← Mat.mk2 8 8
    let c ← (irange 1 8).foldlM (fun m i => fill m [(13/10, i, 1), (2/10, i, 3), (824/10, i, 4), (94/10, i, 5), (34/10, i, 6), (-3, i, 8)]) c
    QC.unscrambleCoef2 [1, 4, 3] [2, 5] [1, 2, 1, 2, 2] c)
    (fun m => holds m (List.replicate 8 [13/10, 94/10, 34/10, 824/10, 0, 2/10, 0, -3])) = true := by decide +kernel

/-- test_qc_functions.cpp:149-291: `unscramble_S`. -/
example : passes (do
    let c ← Mat.mk2 8 8
    let c ← (irange 1 8).foldlM (fun m i => fill m [(13/10, i, 2), (13/10, i, 3), (4, i, 4)]) c
    let c ← (irange 1 8).foldlM (fun m i => fill m [(13/10, 2, i), (13/10, 3, i), (4, 4, i)]) c
    let c ← fill c [(6, 2, 4), (6, 3, 4), (6, 4, 2), (6, 4, 3)]
    QC.unscrambleS2 [1, 4, 3] [2, 5] [1, 2, 1, 2, 2] c)
    (fun m => holds m [[0, 0, 0, 4, 13/10, 13/10, 0, 0], [0, 0, 0, 4, 13/10, 13/10, 0, 0], [0, 0, 0, 4, 13/10, 13/10, 0, 0],
      [4, 4, 4, 4, 6, 6, 4, 4], [13/10, 13/10, 13/10, 6, 13/10, 13/10, 13/10, 13/10], [13/10, 13/10, 13/10, 6, 13/10, 13/10, 13/10, 13/10],
      [0, 0, 0, 4, 13/10, 13/10, 0, 0], [0, 0, 0, 4, 13/10, 13/10, 0, 0]]) = true := by decide +kernel

/-! ### test_string_support.cpp -/
open Strings

/-- test_string_support.cpp:13-22 -/
example : splitSt (lit "Hello World    Lot of space") = [(lit "Hello"), (lit "World"), (lit "Lot"), (lit "of"), (lit "space")] := by decide +kernel
/-- test_string_support.cpp:24-29 -/
example : lastN (lit "Hi there!") 3 = .ok (lit "re!") := by decide +kernel
/-- test_string_support.cpp:31-36 -/
example : lastStringInPath (lit "Path/To/Important/File.cc") = .ok (lit "File.cc") := by decide +kernel
/-- test_string_support.cpp:38-47 -/
example : getPath (lit "Path/To/Important/File.cc") = .ok (lit "Path/To/Important/") ∧ getPath (lit "File.cc") = .ok (lit "") := by decide +kernel
/-- test_string_support.cpp:49-54 -/
example : cutEnd (lit "Important words") 3 = .ok (lit "Important wo") := by decide +kernel
/-- test_string_support.cpp:56-66 -/
example : foundSubStrInStr (lit "This is my world.") (lit "my") = true ∧ foundSubStrInStr (lit "This is my world.") (lit "nothing") = false ∧
    foundSubStrInStr (lit " Alpha  occ. eigenvalues --  -10.20023 -10.19942 -10.19578 -10.19497  -0.76368") (lit " Alpha  occ. eigenvalues --") = true := by decide +kernel
/-- test_string_support.cpp:68-76 -/
example : isAlphabetical (lit "This has spaces") = false ∧ isAlphabetical (lit "JustLetters") = true ∧ isAlphabetical (lit "") = false := by decide +kernel
/-- test_string_support.cpp:78-85 -/
example : grabStrAfterFirstOccurance (lit "Words and Numbers 023D-23 blah") (lit "D") = .ok (lit "-23 blah") ∧
    grabStrAfterFirstOccurance (lit "Words and Numbers 023D-23 blah") (lit "MOM") = .ok (lit "") := by decide +kernel
/-- test_string_support.cpp:87-95 -/
example : grabStrAfterLastOccurance (lit "This.is.a.file.name") (lit ".") = .ok (lit "name") ∧
    grabStrAfterLastOccurance (lit "NoExtfilename") (lit ".") = .ok (lit "") := by decide +kernel
/-- test_string_support.cpp:97-104 -/
example : grabStrBeforeFirstOccurance (lit "Words and Numbers 023D-23 blah") (lit "D") = .ok (lit "Words and Numbers 023") ∧
    grabStrBeforeFirstOccurance (lit "Words and Numbers 023D-23 blah") (lit "DADA") = .ok (lit "Words and Numbers 023D-23 blah") := by decide +kernel

end Verif.Tests
