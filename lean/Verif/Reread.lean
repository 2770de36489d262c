import Verif.LogReader
import Verif.PunReader
/-
Model of a reader as an object on which `read` can be called again and again.
-/
namespace Verif.Readers

section
variable {σ : Type}

/-- filereader.hpp:38-47, the members that outlive a call of `read`: whether the file of `fid_` is open, `pos_` (as an offset; `none` is -1)
and the members of the derived class. -/
structure Reader (σ : Type) where
  isOpen : Bool
  pos : Option Nat
  data : σ

/-- filereader.hpp:18: a new reader (`std::streampos` starts at 0). -/
def Reader.new (data : σ) : Reader σ := ⟨false, some 0, data⟩

/-- filereader.cpp:14-25 `read`, with `open` 29-35 and `close` 37-40, on a reader that may have been used before. If the file is still open,
because an earlier call of `read` ended with an exception, `fid_.open` sets `failbit`, so that `getline` fails at once, and `fid_.close` closes
the file. Otherwise `fid_.open` clears the state of the stream. (`pos_` is set after each line, so an empty file leaves it alone.) -/
def Reader.read (s : Sections σ) (fs : Str → Option Str) (fileName : Str) (fuel : Nat) (r : Reader σ) : Res (Reader σ) :=
  match fs fileName with
  | none => .throw .invalidArgument
  | some text =>
    if r.isOpen then .ok { r with isOpen := false }
    else do
      let f ← readLoop s fuel ⟨openText text, r.pos.map (text.drop ·), r.data⟩ []
      .ok ⟨false, if text = [] then r.pos else f.pos.map (fun rest => text.length - rest.length), f.data⟩

/-- How a reader is left by a call of `read` that ends with an exception: untouched if there is no such file, otherwise with its file open;
what it holds then, of what was read so far, is left unspecified. (filereader.cpp:14-40) -/
def Reader.Left (fs : Str → Option Str) (fileName : Str) (r r' : Reader σ) : Prop :=
  if fs fileName = none then r' = r else r'.isOpen = true

/-- Calls of `read`, one after the other; the file has the contents `texts`, in turn. (filereader.cpp:14-25, called repeatedly) -/
def Reader.reads (s : Sections σ) (fileName : Str) (fuel : Nat) (r : Reader σ) (texts : List Str) : Res (Reader σ) :=
  texts.foldlM (fun r text => r.read s (fun _ => some text) fileName fuel) r

end

/-- punreader.cpp:16-19: `PunReader pr(fileName);` and then calls of `read`, the file having the contents `texts`, in turn. -/
def punReads {α : Type} [Mul α] [Num α] [Zero α] (fileName : Str) (texts : List Str) (fuel : Nat) : Res (Reader (PunData α)) := do
  let _ ← punReaderNew (α := α) fileName
  (Reader.new []).reads punSections fileName fuel texts

/-- logreader.cpp:67-70: the same for `LogReader lr(fileName);`. -/
def logReads {α : Type} [Mul α] [Num α] [Zero α] (fileName : Str) (texts : List Str) (fuel : Nat) : Res (Reader (LogData α)) := do
  let _ ← logReaderNew (α := α) fileName
  (Reader.new LogData.empty).reads logSections fileName fuel texts

/-- The first call is what `Readers.read` models. -/
theorem Reader.read_new {σ : Type} (s : Sections σ) (fs : Str → Option Str) (fileName : Str) (fuel : Nat) (data : σ) :
    ((Reader.new data).read s fs fileName fuel >>= fun r => .ok r.data) = Readers.read s fs fileName fuel data := by
  unfold Reader.read Readers.read Reader.new
  cases fs fileName with
  | none => rfl
  | some text => simp only [Bool.false_eq_true, if_false, Option.map_some, List.drop_zero, bind_assoc, Res.ok_bind]

end Verif.Readers
