import Mathlib.Data.List.Basic

/-!
# Model of animatable list parameters (FCDocument/FCDParameterAnimatable.h, .hpp, .cpp)

A list parameter holds values in a `fm::vector` and the animation helpers (`FCDAnimated`) of some of them in a container that is ordered by array element.
The buffer of the vector is a number that changes with each reallocation (FMArray.h 306-354: the new buffer is allocated before the old one is released). A
helper points at the floats of one value; as all its pointers are set together (FCDParameterAnimatable.cpp 247-281, .hpp 214-217), it has one pointer here:
a buffer and an index. Flags are left out. `none` is undefined behaviour or a call that never ends.
-/

namespace Verif.FAnimList

/-- FCDAnimated.h 64, 82: a helper, with an identity. -/
structure Helper where
  id : Nat
  elem : Int
  ptr : Nat × Nat
  deriving DecidableEq

/-- FCDParameterAnimatable.h 147, 213 and FMArray.h 48-50. `next` is the identity of the next helper. -/
structure State (α : Type) where
  values : List α
  cap : Nat
  block : Nat
  helpers : List Helper
  next : Nat
  deriving DecidableEq

variable {α : Type}

/-- A new parameter. -/
def State.empty : State α := ⟨[], 0, 0, [], 0⟩

/-- The conversion of `size_t` to `int32`. -/
def i32 (n : Nat) : Int := if n % 2 ^ 32 < 2 ^ 31 then (n % 2 ^ 32 : Nat) else (n % 2 ^ 32 : Nat) - 2 ^ 32

/-- Subtraction of `size_t` values. -/
def wsub (a b : Nat) : Nat := (a + 2 ^ 64 - b) % 2 ^ 64

/-- FCDParameterAnimatable.cpp 225-234: the loop of `BinarySearch`. -/
def search (hs : List Helper) (key : Int) (start stop : Nat) : Option Nat :=
  if start < stop then
    match hs[(stop + start) / 2]? with
    | none => none
    | some h =>
      if h.elem < key then search hs key ((stop + start) / 2 + 1) stop
      else if h.elem > key then search hs key start ((stop + start) / 2)
      else some ((stop + start) / 2)
  else some ((stop + start) / 2)
termination_by stop - start

/-- FCDParameterAnimatable.cpp 222-235: `BinarySearch`. -/
def binarySearch (hs : List Helper) (index : Nat) : Option Nat := search hs (i32 index) 0 hs.length

/-- FCDParameterAnimatable.cpp 191-200: `OnInsertion`. -/
def onInsertion (hs : List Helper) (offset count : Nat) : Option (List Helper) :=
  (binarySearch hs offset).map fun i =>
    hs.take i ++ (hs.drop i).map fun h => if h.elem ≥ i32 offset then { h with elem := h.elem + i32 count } else h

/-- FCDParameterAnimatable.cpp 205-211: the first loop of `OnRemoval`, on the helpers from the place found on; a released helper leaves the container. The
fallback of the assertion starts the loop again with the same helper, without end. -/
def releaseLoop (offset last : Int) : List Helper → Option (List Helper)
  | [] => some []
  | h :: hs => if h.elem ≥ offset then (if h.elem ≥ last then some (h :: hs) else releaseLoop offset last hs) else none

/-- FCDParameterAnimatable.cpp 202-220: `OnRemoval`. -/
def onRemoval (hs : List Helper) (offset count : Nat) : Option (List Helper) :=
  (binarySearch hs offset).bind fun i =>
  (releaseLoop (i32 offset) (i32 (offset + count)) (hs.drop i)).bind fun rest =>
  (binarySearch (hs.take i ++ rest) (offset + count)).map fun j =>
    (hs.take i ++ rest).take j ++
      ((hs.take i ++ rest).drop j).map fun h => if h.elem ≥ i32 (offset + count) then { h with elem := h.elem - i32 count } else h

/-- FCDParameterAnimatable.hpp 209-218: the loop of `OnPotentialSizeChange`. -/
def fixLoop (block size : Nat) : List Helper → List Helper
  | [] => []
  | h :: hs => if 0 ≤ h.elem ∧ h.elem < size then { h with ptr := (block, h.elem.toNat) } :: fixLoop block size hs else h :: hs

/-- FCDParameterAnimatable.hpp 194-219: `OnPotentialSizeChange`. -/
def fixPointers (s : State α) : State α :=
  match s.helpers with
  | [] => s
  | h :: _ =>
    if 0 ≤ h.elem ∧ h.elem < s.values.length then
      if h.ptr = (s.block, h.elem.toNat) then s else { s with helpers := fixLoop s.block s.values.length s.helpers }
    else s

/-- FMArray.h 306-354: `reserve`, without the loss of values. -/
def reserve (s : State α) (count : Nat) : State α := if s.cap ≠ count then { s with cap := count, block := s.block + 1 } else s

/-- FMArray.h 376-409: `insert` of one value. -/
def vecInsert (s : State α) (i : Nat) (x : α) : State α :=
  let s := if s.values.length = s.cap then reserve s (s.values.length + (if s.values.length > 31 then 32 else s.values.length + 1)) else s
  { s with values := s.values.take i ++ x :: s.values.drop i }

/-- FMArray.h 457-503: `insert` of copies of one value. -/
def vecInsertCopies (s : State α) (i count : Nat) (x : α) : State α :=
  let s := if s.values.length + count > s.cap then reserve s (s.values.length + count) else s
  { s with values := s.values.take i ++ (List.replicate count x ++ s.values.drop i) }

/-- FMArray.h 517-556: `insert` of an array. -/
def vecInsertArray (s : State α) (i : Nat) (xs : List α) : State α :=
  let s := if s.values.length + xs.length > s.cap ∧ xs ≠ [] then
    reserve s (if s.values.length + xs.length - s.cap > 32 then s.values.length + xs.length else s.cap + 32) else s
  { s with values := s.values.take i ++ (xs ++ s.values.drop i) }

/-- FMArray.h 148-198: `erase` of a range. -/
def vecErase (s : State α) (first last : Nat) : State α := { s with values := s.values.take first ++ s.values.drop last }

/-- FMArray.h 258-297: `resize`; `x` is the value of the new cells (unspecified for `resize(count)`). -/
def vecResize (s : State α) (count : Nat) (x : α) : State α :=
  let s := reserve s count
  { s with values := s.values.take count ++ List.replicate (count - s.values.length) x }

/-- The calls. -/
inductive Op (α : Type) where
  | get (i : Nat)
  | release (id : Nat)
  | set (i : Nat) (x : α)
  | insert (i : Nat) (x : α)
  | insertCopies (i count : Nat) (x : α)
  | insertArray (i : Nat) (xs : List α)
  | erase (i : Nat)
  | eraseRange (first last : Nat)
  | clear
  | pushBack (x : α)
  | pushFront (x : α)
  | popBack
  | popFront
  | resize (count : Nat) (x : α)
  | resizeWith (count : Nat) (x : α)

/-- FCDParameterAnimatable.cpp 156-171: `GetAnimated`, the helper and the state. -/
def getAnimated (s : State α) (i : Nat) : Option (Nat × State α) :=
  (binarySearch s.helpers i).bind fun mid =>
  match (s.helpers[mid]?).filter (fun h => h.elem = i32 i) with
  | some h => some (h.id, s)
  | none =>
    if i < s.values.length then
      some (s.next, { s with helpers := s.helpers.take mid ++ ⟨s.next, i32 i, (s.block, i)⟩ :: s.helpers.drop mid, next := s.next + 1 })
    else none

/-- The container loses a helper that is released (FUObject.h, `OnOwnedObjectReleased`). -/
def releaseHelper (s : State α) (id : Nat) : State α := { s with helpers := s.helpers.filter (·.id ≠ id) }

/-- Helpers after a change of the list, and the check of the pointers. -/
def finish (s : State α) (hs : Option (List Helper)) : Option (State α) := hs.map fun hs => fixPointers { s with helpers := hs }

/-- FCDParameterAnimatable.hpp 61-192. -/
def step (s : State α) : Op α → Option (State α)
  | .get i => (getAnimated s i).map Prod.snd
  | .release id => some (releaseHelper s id)
  | .set i x => if i < s.values.length then some { s with values := s.values.set i x } else none
  | .insert i x => finish (vecInsert s i x) (onInsertion s.helpers i 1)
  | .insertCopies i count x => finish (vecInsertCopies s i count x) (onInsertion s.helpers i count)
  | .insertArray i xs => finish (vecInsertArray s i xs) (onInsertion s.helpers i xs.length)
  | .erase i => finish (vecErase s i (i + 1)) (onRemoval s.helpers i 1)
  | .eraseRange first last => finish (vecErase s first last) (onRemoval s.helpers first (last - first))
  | .clear => finish { reserve s 0 with values := [] } (onRemoval s.helpers 0 s.values.length)
  | .pushBack x => finish (vecInsert s s.values.length x) (onInsertion s.helpers s.values.length 1)
  | .pushFront x => finish (vecInsert s 0 x) (onInsertion s.helpers 0 1)
  | .popBack => finish (vecErase s (s.values.length - 1) s.values.length) (onRemoval s.helpers (wsub s.values.length 1) 1)
  | .popFront => finish (vecErase s 0 1) (onRemoval s.helpers 0 1)
  | .resize count x =>
    finish (vecResize s count x)
      (if count > s.values.length then onInsertion s.helpers s.values.length (count - s.values.length)
      else if count < s.values.length then onRemoval s.helpers count (s.values.length - count) else some s.helpers)
  | .resizeWith count x =>
    finish (vecResize s count x)
      (if count > s.values.length then onInsertion s.helpers s.values.length (count - s.values.length)
      else if count < s.values.length then onRemoval s.helpers (wsub count s.values.length) s.values.length else some s.helpers)

end Verif.FAnimList
