import Mathlib.Data.List.Basic

/-!
# Model of `fm::vector` (FMath/FMArray.h)

The heap buffer is a list of cells, `none` being a cell that holds no object (class types) or an indeterminate value (trivially
copyable types). Positions are offsets from `begin()`. The flag `triv` is `std::is_trivially_copyable_v<T>`, which selects the
code paths (`memmove` or construct/destroy loops). An access outside the buffer, and for class types reading or destroying
a cell without an object, is undefined behaviour and yields `none`. `lost` counts the objects whose storage was given up or
overwritten without running their destructor. Allocation failure is not modelled.
-/

namespace Verif.FVec

/-- FMArray.h 48-50: `reserved` is the length of `buf`. -/
structure Vec (T : Type) where
  buf : List (Option T)
  sized : Nat
  lost : Nat
  deriving DecidableEq

variable {T : Type}

/-- FMArray.h 61: the default constructor. -/
def Vec.empty : Vec T := ⟨[], 0, 0⟩

/-- A value argument of type `const T&`: an object outside the vector, or the vector's own element `i`. -/
inductive Arg (T : Type) where
  | val (x : T)
  | own (i : Nat)

/-- Read a cell. For class types the cell must hold an object. -/
def readCell (triv : Bool) (buf : List (Option T)) (i : Nat) : Option (Option T) :=
  match buf[i]? with
  | none => none
  | some none => if triv then some none else none
  | some (some x) => some (some x)

/-- Evaluate a reference argument at the time it is used; `fresh` tells whether the buffer was reallocated since the call started,
in which case a reference to an own element dangles. -/
def Arg.get (triv fresh : Bool) (buf : List (Option T)) : Arg T → Option (Option T)
  | .val x => some (some x)
  | .own i => if fresh then none else readCell triv buf i

/-- Assign (`*it = x`) or construct (`fm::Construct(it, x)`, FMAllocator.h 61-65) a cell. Constructing over a live object loses it. -/
def put (triv : Bool) (v : Vec T) (i : Nat) (x : Option T) : Option (Vec T) :=
  match v.buf[i]? with
  | none => none
  | some old => some { v with buf := v.buf.set i x, lost := if triv || old.isNone then v.lost else v.lost + 1 }

/-- `(*it).~T()` for class types; nothing for trivially copyable types. -/
def destroy (triv : Bool) (v : Vec T) (i : Nat) : Option (Vec T) :=
  if triv then some v
  else match v.buf[i]? with
    | some (some _) => some { v with buf := v.buf.set i none }
    | _ => none

/-- FMArray.h 98-101, 181-182: destroy `n` cells from `i` on. -/
def destroyRange (triv : Bool) (v : Vec T) (i : Nat) : Nat → Option (Vec T)
  | 0 => some v
  | n + 1 => (destroy triv v i).bind fun v' => destroyRange triv v' (i + 1) n

/-- `memmove(dst, src, n * sizeof(T))`. -/
def memmove (v : Vec T) (dst src n : Nat) : Option (Vec T) :=
  if src + n ≤ v.buf.length ∧ dst + n ≤ v.buf.length then
    some { v with buf := v.buf.take dst ++ ((v.buf.drop src).take n ++ v.buf.drop (dst + n)) }
  else none

/-- FMArray.h 161-162, 393-394: `fm::Construct(dst, *src); (*src).~T();`. -/
def moveCell (v : Vec T) (dst src : Nat) : Option (Vec T) :=
  (readCell false v.buf src).bind fun x => (put false v dst x).bind fun v' => destroy false v' src

/-- FMArray.h 391-395, 474-478, 534-538: `for (i = n; i > 0; --i)` move cell `it - 1 + i` to `it - 1 + count + i`. -/
def upLoop (v : Vec T) (it count : Nat) : Nat → Option (Vec T)
  | 0 => some v
  | i + 1 => (moveCell v (it + count + i) (it + i)).bind fun v' => upLoop v' it count i

/-- FMArray.h 159-163, 190-194: `for (i = 0; i < n; ++i)` move cell `last + i` to `first + i`. -/
def downLoop (v : Vec T) (first last : Nat) : Nat → Option (Vec T)
  | 0 => some v
  | n + 1 => (moveCell v first last).bind fun v' => downLoop v' (first + 1) (last + 1) n

/-- FMArray.h 387-397: make room for `count` values at `it`. -/
def shiftUp (triv : Bool) (v : Vec T) (it count : Nat) : Option (Vec T) :=
  if it < v.sized then
    if triv then memmove v (it + count) it (v.sized - it) else upLoop v it count (v.sized - it)
  else some v

/-- FMArray.h 184-196: close the gap between `first` and `last`. -/
def shiftDown (triv : Bool) (v : Vec T) (first last : Nat) : Option (Vec T) :=
  if v.sized > last then
    if triv then memmove v first last (v.sized - last) else downLoop v first last (v.sized - last)
  else some v

/-- FMArray.h 427-433: `pop_back`. -/
def popBack (triv : Bool) (v : Vec T) : Option (Vec T) :=
  if v.sized > 0 then (destroy triv v (v.sized - 1)).map fun v' => { v' with sized := v'.sized - 1 }
  else some v

/-- FMArray.h 321: `while (sized > count) pop_back();`. -/
def popDownTo (v : Vec T) (count : Nat) : Nat → Option (Vec T)
  | 0 => some v
  | fuel + 1 => if v.sized > count then (popBack false v).bind fun v' => popDownTo v' count fuel else some v

/-- FMArray.h 306-354: `reserve`. Sizes above `INT_MAX` only trip an assertion without effect. The old objects of a class type are
copied, and their storage released without destroying them (lines 337-350). -/
def reserve (triv : Bool) (v : Vec T) (count : Nat) : Option (Vec T) :=
  if v.buf.length ≠ count then
    (if triv then some { v with sized := if v.sized > count then count else v.sized } else popDownTo v count v.sized).bind fun v =>
      if v.sized ≤ v.buf.length ∧ v.sized ≤ count ∧ (triv ∨ ∀ c ∈ v.buf.take v.sized, c.isSome) then
        some { v with buf := v.buf.take v.sized ++ List.replicate (count - v.sized) none,
                      lost := if triv then v.lost else v.lost + v.sized }
      else none
  else some v

/-- FMArray.h 376-409: `insert(it, item)`. -/
def insertOne (triv : Bool) (v : Vec T) (it : Nat) (item : Arg T) : Option (Vec T) :=
  if it ≤ v.sized then
    (if v.sized = v.buf.length then reserve triv v (v.sized + (if v.sized > 31 then 32 else v.sized + 1)) else some v).bind fun v1 =>
    (shiftUp triv v1 it 1).bind fun v2 =>
    (item.get triv (v.sized = v.buf.length) v2.buf).bind fun x =>
    (put triv v2 it x).map fun v3 => { v3 with sized := v3.sized + 1 }
  else some v

/-- FMArray.h 418, 424: `push_back`, `push_front`. -/
def pushBack (triv : Bool) (v : Vec T) (item : Arg T) : Option (Vec T) := insertOne triv v v.sized item
def pushFront (triv : Bool) (v : Vec T) (item : Arg T) : Option (Vec T) := insertOne triv v 0 item

/-- FMArray.h 487-499: write `n` copies of an argument from `it` on. -/
def fillLoop (triv fresh : Bool) (v : Vec T) (it : Nat) (item : Arg T) : Nat → Option (Vec T)
  | 0 => some v
  | n + 1 => (item.get triv fresh v.buf).bind fun x => (put triv v it x).bind fun v' => fillLoop triv fresh v' (it + 1) item n

/-- FMArray.h 457-503: `insert(it, count, item)` (with `noInit` false). -/
def insertMany (triv : Bool) (v : Vec T) (it count : Nat) (item : Arg T) : Option (Vec T) :=
  if count > 0 then
    if it ≤ v.sized then
      (if v.sized + count > v.buf.length then reserve triv v (v.sized + count) else some v).bind fun v1 =>
      (shiftUp triv v1 it count).bind fun v2 =>
      fillLoop triv (v.sized + count > v.buf.length) { v2 with sized := v2.sized + count } it item count
    else some v
  else some v

/-- FMArray.h 543-554: copy an outside array into the cells from `it` on. -/
def copyLoop (triv : Bool) (v : Vec T) (it : Nat) : List T → Option (Vec T)
  | [] => some v
  | x :: xs => (put triv v it (some x)).bind fun v' => copyLoop triv v' (it + 1) xs

/-- FMArray.h 517-556: `insert(it, first, count)` from an array outside the vector. -/
def insertRange (triv : Bool) (v : Vec T) (it : Nat) (xs : List T) : Option (Vec T) :=
  if xs.length > 0 then
    if it ≤ v.sized then
      (if v.sized + xs.length > v.buf.length then
        reserve triv v (if v.sized + xs.length - v.buf.length > 32 then v.sized + xs.length else v.buf.length + 32)
       else some v).bind fun v1 =>
      (shiftUp triv v1 it xs.length).bind fun v2 =>
      copyLoop triv { v2 with sized := v2.sized + xs.length } it xs
    else some v
  else some v

/-- FMArray.h 148-168: `erase(it)`. -/
def eraseAt (triv : Bool) (v : Vec T) (it : Nat) : Option (Vec T) :=
  if it < v.sized then
    (destroy triv v it).bind fun v1 =>
    (shiftDown triv v1 it (it + 1)).map fun v2 => { v2 with sized := v2.sized - 1 }
  else some v

/-- FMArray.h 175-198: `erase(first, last)`; a reversed range is `none`. -/
def eraseRange (triv : Bool) (v : Vec T) (first last : Nat) : Option (Vec T) :=
  if first < v.sized then
    if 0 < last ∧ last ≤ v.sized then
      if first ≤ last then
        (destroyRange triv v first (last - first)).bind fun v1 =>
        (shiftDown triv v1 first last).map fun v2 => { v2 with sized := v2.sized - (last - first) }
      else none
    else some v
  else some v

/-- FMArray.h 119-124: `find(value)`: the offset of the first equal element, or of `end()`. -/
def findLoop [DecidableEq T] (triv : Bool) (v : Vec T) (x : T) (i : Nat) : Option Nat :=
  if i < v.sized then
    (readCell triv v.buf i).bind fun c => if c = some x then some i else findLoop triv v x (i + 1)
  else some i
termination_by v.sized - i

/-- FMArray.h 208: `erase(value)`. -/
def eraseValue [DecidableEq T] (triv : Bool) (v : Vec T) (x : T) : Option (Vec T × Bool) :=
  (findLoop triv v x 0).bind fun i =>
    if i ≠ v.sized then (eraseAt triv v i).map fun v' => (v', true) else some (v, false)

/-- FMArray.h 217: `contains(value)`. -/
def contains [DecidableEq T] (triv : Bool) (v : Vec T) (x : T) : Option Bool :=
  (findLoop triv v x 0).map fun i => decide (i ≠ v.sized)

/-- FMArray.h 225-231: `replace(oldValue, newValue)`; `*start = newValue` assigns a live object. -/
def replaceLoop [DecidableEq T] (triv : Bool) (v : Vec T) (old new : T) (i : Nat) : Nat → Option (Vec T)
  | 0 => some v
  | n + 1 => (readCell triv v.buf i).bind fun c =>
      replaceLoop triv (if c = some old then { v with buf := v.buf.set i (some new) } else v) old new (i + 1) n

def replace [DecidableEq T] (triv : Bool) (v : Vec T) (old new : T) : Option (Vec T) := replaceLoop triv v old new 0 v.sized

/-- FMArray.h 258-275: `resize(count)`; `dflt` is `T()`. -/
def resize (triv : Bool) (dflt : T) (v : Vec T) (count : Nat) : Option (Vec T) :=
  (reserve triv v count).bind fun v1 =>
    if triv then some { v1 with sized := v1.buf.length }
    else (fillLoop triv false v1 v1.sized (.val dflt) (count - v1.sized)).map fun v2 => { v2 with sized := v1.sized + (count - v1.sized) }

/-- FMArray.h 280-297: `resize(count, value)`. -/
def resizeWith (triv : Bool) (v : Vec T) (count : Nat) (item : Arg T) : Option (Vec T) :=
  (reserve triv v count).bind fun v1 =>
    (fillLoop triv (v.buf.length ≠ count) v1 v1.sized item (count - v1.sized)).map fun v2 =>
      { v2 with sized := v1.sized + (count - v1.sized) }

/-- FMArray.h 300: `clear`. -/
def clear (triv : Bool) (v : Vec T) : Option (Vec T) := reserve triv v 0

/-- FMArray.h 612-615. -/
def pushAll (triv : Bool) (v : Vec T) : List T → Option (Vec T)
  | [] => some v
  | x :: xs => (pushBack triv v (.val x)).bind fun v' => pushAll triv v' xs

/-- FMArray.h 599-619: `operator=` from another vector holding `xs`; `dflt` is `T()`. -/
def assign (triv : Bool) (dflt : T) (v : Vec T) (xs : List T) : Option (Vec T) :=
  if triv then (resize true dflt v xs.length).bind fun v1 => copyLoop true v1 0 xs
  else (reserve false v xs.length).bind fun v1 => (clear false v1).bind fun v2 => pushAll false v2 xs

/-- FMArray.h 438-441: `pop_front`. -/
def popFront (triv : Bool) (v : Vec T) : Option (Vec T) := eraseAt triv v 0

/-- FMArray.h 577-580: `at(i)`, `operator[](i)`: the assertion has no effect, so an index beyond the buffer is undefined. -/
def at? (triv : Bool) (v : Vec T) (i : Nat) : Option (Option T) := readCell triv v.buf i

end Verif.FVec
