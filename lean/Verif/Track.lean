import Mathlib.Logic.Function.Basic
import Mathlib.Data.List.Basic

/-!
# Model of trackable objects, tracked pointers and tracked lists (FUtils/FUTracker.h, FUTracker.cpp)

Objects and trackers are numbered by their addresses. `none` as the result of an operation is undefined behaviour: the code would use an
object or a tracker that is not alive, or an iterator outside a list. Trackers other than `FUTrackedPtr` and `FUTrackedList` are not
modelled, nor are destructors of objects that do more than `~FUTrackable`.
-/

namespace Verif.FTrack

/-- A pointer to a trackable object; `none` is NULL. -/
abbrev Ptr := Option Nat

/-- FUTracker.h 113 (`FUTrackedPtr::ptr`) and 176 (the pointers of an `FUTrackedList`, in order). -/
inductive Content where
  | ptr (p : Ptr)
  | list (ps : List Ptr)
deriving DecidableEq

/-- The pointers a tracker holds. -/
def Content.items : Content → List Ptr
  | .ptr p => [p]
  | .list ps => ps

/-- The live objects with their lists of trackers (FUTracker.h 39) and the live trackers with their pointers. -/
structure World where
  objs : Nat → Option (List Nat)
  trks : Nat → Option Content

/-- A world without objects and trackers. -/
def empty : World := ⟨fun _ => none, fun _ => none⟩

/-- FUTracker.h 95 and FUTracker.cpp 41-45: `TrackObject`, `AddTracker`. -/
def track (w : World) (t : Nat) : Ptr → Option World
  | none => some w
  | some o =>
    (w.objs o).bind fun ts => if t ∈ ts then some w else some { w with objs := Function.update w.objs o (some (ts ++ [t])) }

/-- FUTracker.h 99 and FUTracker.cpp 46-51: `UntrackObject`, `RemoveTracker`; the value is erased once (FMArrayPointer.h 181-186). -/
def untrack (w : World) (t : Nat) : Ptr → Option World
  | none => some w
  | some o => (w.objs o).bind fun ts => some { w with objs := Function.update w.objs o (some (ts.erase t)) }

/-- A loop over `TrackObject`. -/
def trackAll (w : World) (t : Nat) : List Ptr → Option World
  | [] => some w
  | p :: ps => (track w t p).bind fun w => trackAll w t ps

/-- A loop over `UntrackObject`. -/
def untrackAll (w : World) (t : Nat) : List Ptr → Option World
  | [] => some w
  | p :: ps => (untrack w t p).bind fun w => untrackAll w t ps

/-- Store into tracker `t`. -/
def put (w : World) (t : Nat) (c : Option Content) : World := { w with trks := Function.update w.trks t c }

/-- FUTracker.cpp 18-20: a new object at a free address. -/
def create (w : World) (o : Nat) : Option World :=
  if w.objs o = none then some { w with objs := Function.update w.objs o (some []) } else none

/-- The pointer of a live `FUTrackedPtr`. -/
def getPtr (w : World) (t : Nat) : Option Ptr := match w.trks t with | some (.ptr p) => some p | _ => none

/-- The pointers of a live `FUTrackedList`. -/
def getList (w : World) (t : Nat) : Option (List Ptr) := match w.trks t with | some (.list ps) => some ps | _ => none

/-- FUTracker.h 119-122: `FUTrackedPtr(ptr)` at a free address. -/
def newPtr (w : World) (t : Nat) (p : Ptr) : Option World :=
  if w.trks t = none then track (put w t (some (.ptr p))) t p else none

/-- FUTracker.h 126-130: `~FUTrackedPtr`. -/
def deletePtr (w : World) (t : Nat) : Option World :=
  (getPtr w t).bind fun p => (untrack w t p).bind fun w => some (put w t none)

/-- FUTracker.h 135-141: `FUTrackedPtr::operator=(ObjectClass*)`. -/
def assign (w : World) (t : Nat) (p : Ptr) : Option World :=
  (getPtr w t).bind fun q => (untrack w t q).bind fun w => track (put w t (some (.ptr p))) t p

/-- FUTracker.h 142: `FUTrackedPtr::operator=(const FUTrackedPtr&)`. -/
def assignFrom (w : World) (t s : Nat) : Option World := (getPtr w s).bind fun p => assign w t p

/-- FUTracker.h 109-166: `FUTrackedPtr` declares no copy constructor: the implicit one copies the pointer. -/
def copyPtr (w : World) (t s : Nat) : Option World :=
  if w.trks t = none then (getPtr w s).bind fun p => some (put w t (some (.ptr p))) else none

/-- FUTracker.h 185: `FUTrackedList()` at a free address. -/
def newList (w : World) (t : Nat) : Option World := if w.trks t = none then some (put w t (some (.list []))) else none

/-- FUTracker.h 191-198: `clear`. -/
def clear (w : World) (t : Nat) : Option World :=
  (getList w t).bind fun ps => (untrackAll w t ps).bind fun w => some (put w t (some (.list [])))

/-- FUTracker.h 188: `~FUTrackedList`. -/
def deleteList (w : World) (t : Nat) : Option World := (clear w t).bind fun w => some (put w t none)

/-- FUTracker.h 237-241: `push_back`. -/
def pushBack (w : World) (t : Nat) (p : Ptr) : Option World :=
  (getList w t).bind fun ps => (track w t p).bind fun w => some (put w t (some (.list (ps ++ [p]))))

/-- FUTracker.h 247-256: `insert` of one pointer at an index. -/
def insert (w : World) (t k : Nat) (p : Ptr) : Option World :=
  (getList w t).bind fun ps =>
  if k ≤ ps.length then (track w t p).bind fun w => some (put w t (some (.list (ps.take k ++ p :: ps.drop k)))) else none

/-- FUTracker.h 263-279: `insert` of a range of pointers that is not part of the list itself. -/
def insertAll (w : World) (t k : Nat) (qs : List Ptr) : Option World :=
  (getList w t).bind fun ps =>
  if k ≤ ps.length then (trackAll w t qs).bind fun w => some (put w t (some (.list (ps.take k ++ qs ++ ps.drop k)))) else none

/-- FUTracker.h 293-297, 330: `erase` of the pointer at an index. -/
def eraseAt (w : World) (t k : Nat) : Option World :=
  (getList w t).bind fun ps =>
  (ps[k]?).bind fun p => (untrack w t p).bind fun w => some (put w t (some (.list (ps.take k ++ ps.drop (k + 1)))))

/-- FUTracker.h 302-311: `erase` of the pointers with an index from `a` to before `b`. -/
def eraseRange (w : World) (t a b : Nat) : Option World :=
  (getList w t).bind fun ps =>
  if a ≤ b ∧ b ≤ ps.length then
    (untrackAll w t ((ps.take b).drop a)).bind fun w => some (put w t (some (.list (ps.take a ++ ps.drop b))))
  else none

/-- FUTracker.h 316-326: `erase` of a value, once. -/
def erase (w : World) (t : Nat) (p : Ptr) : Option World :=
  (getList w t).bind fun ps =>
  if p ∈ ps then (untrack w t p).bind fun w => some (put w t (some (.list (ps.erase p)))) else some w

/-- FUTracker.h 282-289: `pop_back`. -/
def popBack (w : World) (t : Nat) : Option World :=
  (getList w t).bind fun ps =>
  match ps.getLast? with
  | none => some w
  | some p => (untrack w t p).bind fun w => some (put w t (some (.list ps.dropLast)))

/-- FUTracker.h 363-370: `pop_front`. -/
def popFront (w : World) (t : Nat) : Option World :=
  (getList w t).bind fun ps =>
  match ps with
  | [] => some w
  | p :: ps => (untrack w t p).bind fun w => some (put w t (some (.list ps)))

/-- FUTracker.h 337: the defaulted copy constructor copies the pointers. -/
def copyList (w : World) (t s : Nat) : Option World :=
  if w.trks t = none then (getList w s).bind fun ps => some (put w t (some (.list ps))) else none

/-- FUTracker.h 344: the defaulted assignment copies the pointers. -/
def assignList (w : World) (t s : Nat) : Option World :=
  (getList w t).bind fun _ => (getList w s).bind fun ps => some (put w t (some (.list ps)))

/-- FUTracker.h 161-165 and 375-379: `OnObjectReleased`. -/
def onReleased (w : World) (o t : Nat) : Option World :=
  (w.trks t).bind fun c =>
  match c with
  | .ptr p => if p = some o then some (put w t (some (.ptr none))) else some w
  | .list ps => if some o ∈ ps then some (put w t (some (.list (ps.erase (some o))))) else some w

/-- FUTracker.cpp 30-33: the loop over the trackers of an object. -/
def notifyAll (w : World) (o : Nat) : List Nat → Option World
  | [] => some w
  | t :: ts => (onReleased w o t).bind fun w => notifyAll w o ts

/-- FUObjectType.h 103, FUTracker.cpp 22-38: `Release`: `Detach`, then the destructor and the memory is freed. -/
def release (w : World) (o : Nat) : Option World :=
  (w.objs o).bind fun ts => (notifyAll w o ts).bind fun w => some { w with objs := Function.update w.objs o none }

/-- FUTracker.h 355-360: `FUTrackedList::release`. -/
def releaseFrom (w : World) (t : Nat) (o : Nat) : Option World :=
  (getList w t).bind fun ps => if some o ∈ ps then (erase w t (some o)).bind fun w => release w o else some w

end Verif.FTrack
