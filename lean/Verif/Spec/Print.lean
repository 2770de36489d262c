import Verif.Print
/-
Specification of a printed matrix, independent of the printing code: the text meant for given dimensions and elements.
-/
namespace Verif.Mat
variable {α : Type}

/-- The line for row `i`: its number and its elements, each followed by a tab. -/
def rowLine (print : α → Str) (c : Int) (f : Int → α) (i : Int) : Str :=
  (lit "Row ") ++ intToStr i ++ (lit "\t") ++ (irange 1 c).flatMap (fun j => print (f j) ++ (lit "\t")) ++ (lit "\n")

/-- The block for shelf `k` with the elements `f i j`. -/
def shelfBlock (print : α → Str) (r c : Int) (f : Int → Int → α) (k : Int) : Str :=
  (lit "\nShelf ") ++ intToStr k ++ (lit "\n\t") ++ (irange 1 c).flatMap (fun j => (lit "Col ") ++ intToStr j ++ (lit "\t")) ++
    (lit "\n") ++ (irange 1 r).flatMap (fun i => rowLine print c (f i) i)

/-- The text meant to be printed: the dimensions, and for every shelf its elements in rows and columns. -/
def matrixText (print : α → Str) (r c s : Int) (f : Int → Int → Int → α) : Str :=
  (lit "Matrix Attributes\nrows ") ++ intToStr r ++ (lit "\ncols ") ++ intToStr c ++ (lit "\nshel ") ++ intToStr s ++
    (irange 1 s).flatMap (fun k => shelfBlock print r c (fun i j => f i j k) k)

end Verif.Mat
