import Verif.Strings
/-
Standard library pieces used by the argument code: `std::map<std::string, V>`, `std::set<std::string>`,
`std::set<std::vector<std::string>>`, `std::stoi` and `std::to_string(int)`.
-/
namespace Verif

/-- `operator<` on `std::string` (the code compares only ASCII text). (C++ standard library; the order of the `std::map`s of argumentparser.hpp and propertyobject.hpp) -/
def strLt : Str → Str → Bool
  | [], [] => false
  | [], _ :: _ => true
  | _ :: _, [] => false
  | a :: s, b :: t => if a.toNat < b.toNat then true else if b.toNat < a.toNat then false else strLt s t

/-- `operator<` on `std::vector<std::string>`. (C++ standard library; the order of the flags given to argumentparser.cpp:16) -/
def vecLt : List Str → List Str → Bool
  | [], [] => false
  | [], _ :: _ => true
  | _ :: _, [] => false
  | a :: s, b :: t => if strLt a b then true else if strLt b a then false else vecLt s t

/-- `std::map<std::string, V>` as the list of its entries in iteration order. (argumentparser.hpp:18-39, propertyobject.hpp) -/
abbrev Map (V : Type u) := List (Str × V)

namespace Map
variable {V : Type u}

/-- `m.find(k)`; `m.count(k)` is `(m.get k).isSome`. (C++ standard library; e.g. argumentparser.cpp:421, 431) -/
def get : Map V → Str → Option V
  | [], _ => none
  | (k', v) :: m, k => if k = k' then some v else get m k

/-- `m[k] = v`. (C++ standard library; e.g. argumentparser.cpp:485, 499) -/
def set : Map V → Str → V → Map V
  | [], k, v => [(k, v)]
  | (k', v') :: m, k, v =>
    if k = k' then (k, v) :: m
    else if strLt k k' then (k, v) :: (k', v') :: m
    else (k', v') :: set m k v

@[simp] theorem get_nil (k : Str) : get ([] : Map V) k = none := rfl

@[simp] theorem get_set_self (m : Map V) (k : Str) (v : V) : (m.set k v).get k = some v := by
  induction m with
  | nil => simp [set, get]
  | cons p m ih =>
    obtain ⟨k', v'⟩ := p
    unfold set
    split
    · simp [get]
    · split
      · simp [get]
      · rename_i h _; simp [get, h, ih]

@[simp] theorem get_set_ne (m : Map V) {k k2 : Str} (h : k2 ≠ k) (v : V) : (m.set k v).get k2 = m.get k2 := by
  induction m with
  | nil => simp [set, get, h]
  | cons p m ih =>
    obtain ⟨k', v'⟩ := p
    unfold set
    split
    · rename_i h'; subst h'; simp [get, h]
    · split
      · simp [get, h]
      · simp [get, ih]

theorem get_set (m : Map V) (k k2 : Str) (v : V) : (m.set k v).get k2 = if k2 = k then some v else m.get k2 := by
  by_cases h : k2 = k
  · subst h; simp
  · simp [h]

theorem get_mem {m : Map V} {k : Str} {v : V} (h : m.get k = some v) : (k, v) ∈ m := by
  induction m with
  | nil => simp [get] at h
  | cons p m ih =>
    obtain ⟨k', v'⟩ := p
    unfold get at h
    split at h
    · rename_i e; subst e; simp at h; subst h; simp
    · simp [ih h]

theorem mem_set {m : Map V} {k : Str} {v : V} {p : Str × V} (h : p ∈ m.set k v) : p = (k, v) ∨ p ∈ m := by
  induction m with
  | nil => simpa [set] using h
  | cons q m ih =>
    obtain ⟨k', v'⟩ := q
    unfold set at h
    split at h
    · rcases List.mem_cons.1 h with h | h
      · exact .inl h
      · exact .inr (by simp [h])
    · split at h
      · rcases List.mem_cons.1 h with h | h
        · exact .inl h
        · exact .inr h
      · rcases List.mem_cons.1 h with h | h
        · exact .inr (by simp [h])
        · rcases ih h with h | h
          · exact .inl h
          · exact .inr (by simp [h])

end Map

/-- `std::set<std::string>::insert`; a set is the list of its elements in iteration order. (C++ standard library; e.g. io.cpp) -/
def strSetInsert (k : Str) : List Str → List Str
  | [] => [k]
  | k' :: m => if k = k' then k' :: m else if strLt k k' then k :: k' :: m else k' :: strSetInsert k m

/-- `std::set<std::string>{...}`. (C++ standard library; e.g. io.cpp) -/
def strSet (l : List Str) : List Str := l.foldl (fun s k => strSetInsert k s) []

/-- `std::set<std::vector<std::string>>::insert`. (argumentparser.cpp:16-25) -/
def vecSetInsert (k : List Str) : List (List Str) → List (List Str)
  | [] => [k]
  | k' :: m => if k = k' then k' :: m else if vecLt k k' then k :: k' :: m else k' :: vecSetInsert k m

theorem mem_strSetInsert {k x : Str} {l : List Str} : x ∈ strSetInsert k l ↔ x = k ∨ x ∈ l := by
  induction l with
  | nil => simp [strSetInsert]
  | cons k' l ih =>
    unfold strSetInsert
    split
    · rename_i h; subst h; simp
    · split
      · simp
      · simp [ih]; constructor
        · rintro (h | h | h) <;> simp [h]
        · rintro (h | h | h) <;> simp [h]

/-- A set built from a list has exactly the elements of the list. -/
theorem mem_strSet {x : Str} {l : List Str} : x ∈ strSet l ↔ x ∈ l := by
  unfold strSet
  have : ∀ (l s : List Str), x ∈ l.foldl (fun s k => strSetInsert k s) s ↔ x ∈ s ∨ x ∈ l := by
    intro l
    induction l with
    | nil => simp
    | cons a l ih =>
      intro s
      rw [List.foldl_cons, ih, mem_strSetInsert, List.mem_cons]
      constructor
      · rintro ((h | h) | h) <;> simp [h]
      · rintro (h | h | h) <;> simp [h]
  simp [this]

/-- `isdigit`. (C++ standard library, for argumentparser.cpp:483 and logreader.cpp:197) -/
def isDigit (c : Char) : Bool := '0' ≤ c && c ≤ '9'

/-- The value of a digit. (C++ standard library, for argumentparser.cpp:483) -/
def digitVal (c : Char) : Nat := c.toNat - 48

/-- The optional sign at the start of a number: whether it is `-`, and the rest. (C++ standard library, for argumentparser.cpp:483) -/
def splitSign : Str → Bool × Str
  | [] => (false, [])
  | c :: t => if c = '-' then (true, t) else if c = '+' then (false, t) else (false, c :: t)

/-- `strtol(s, &end, 10)` as used by `std::stoi`: `none` if no conversion could be performed, else the number read. (C++ standard library, for argumentparser.cpp:483) -/
def strtol (s : Str) : Option Int :=
  let s := s.dropWhile isSpace
  let ds := (splitSign s).2.takeWhile isDigit
  if ds = [] then none
  else
    let v : Int := ds.foldl (fun acc c => acc * 10 + digitVal c) 0
    some (if (splitSign s).1 then -v else v)

/-- `std::stoi(s)`: `invalid_argument` if there is no number, `out_of_range` if it does not fit an `int`. (Numbers beyond
`long` set ERANGE, which gives the same `out_of_range`.) (argumentparser.cpp:483-485, logreader.cpp:197) -/
def stoi (s : Str) : Res Int :=
  match strtol s with
  | none => .throw .invalidArgument
  | some v => if v < -2147483648 ∨ v > 2147483647 then .throw .outOfRange else .ok v

/-- `std::to_string(int)`. (argumentobject.hpp:148, 208) -/
def intToStr (n : Int) : Str :=
  if n < 0 then '-' :: Nat.toDigits 10 n.natAbs else Nat.toDigits 10 n.natAbs

end Verif
