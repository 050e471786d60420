import Mathlib.Logic.Function.Basic
import Mathlib.Data.List.Basic

/-!
# Model of object ownership (FUtils/FUObject.h, FUObject.cpp)

Objects and owners (object containers and object references) are numbered. An object has the owners that are its members: they are
destroyed, last to first, when the object is deleted; other effects of destructors are not modelled. `none` as a result is undefined behaviour
(the use of a freed object or owner) or a recursion that needs more than the given number of steps; the theorems show that some number of steps
is enough. Erasing and detaching ranges is not modelled.
-/

namespace Verif.FOwn

/-- FUObject.h 153 (`FUObjectRef::ptr`) and 234 (the pointers of an `FUObjectContainer`). -/
inductive Content where
  | ref (p : Option Nat)
  | list (l : List Nat)
deriving DecidableEq

/-- FUObject.h 35: the owner of an object; and the owners that are members of the object, in order of declaration. -/
structure Obj where
  owner : Option Nat
  members : List Nat
deriving DecidableEq

/-- The live objects and owners, and the objects deleted so far. -/
structure World where
  objs : Nat → Option Obj
  cons : Nat → Option Content
  freed : List Nat

/-- Store an owner. -/
def putC (w : World) (c : Nat) (v : Option Content) : World := { w with cons := Function.update w.cons c v }

/-- Store an object. -/
def putO (w : World) (x : Nat) (v : Option Obj) : World := { w with objs := Function.update w.objs x v }

/-- FUObject.h 85-92, 106: `AttachObject`: an object that has an owner keeps it. -/
def attach (w : World) (c x : Nat) : Option World :=
  (w.objs x).bind fun o => if o.owner = none then some (putO w x (some { o with owner := some c })) else some w

/-- FUObject.h 112-117: `DetachObject`. -/
def dropOwner (w : World) (c x : Nat) : Option World :=
  (w.objs x).bind fun o => if o.owner = some c then some (putO w x (some { o with owner := none })) else some w

/-- FUObject.h 219-223 and 534-538: `OnOwnedObjectReleased`. -/
def onReleased (w : World) (c x : Nat) : Option World :=
  (w.cons c).bind fun v =>
  match v with
  | .ref p => if p = some x then some (putC w c (some (.ref none))) else some w
  | .list l => if x ∈ l then some (putC w c (some (.list (l.erase x)))) else some w

/-- FUObject.cpp 35-42: `Detach`. -/
def detach (w : World) (x : Nat) (o : Obj) : Option World :=
  match o.owner with
  | none => some w
  | some c => (onReleased w c x).bind fun w => some (putO w x (some { o with owner := none }))

/-- The end of the destructor and the end of the memory of the object. -/
def free (w : World) (x : Nat) : World := { w with objs := Function.update w.objs x none, freed := w.freed ++ [x] }

mutual

/-- FUObject.cpp 29-33, FUObjectType.h 103: `Release`: `Detach` and `delete this`. -/
def release : Nat → World → Nat → Option World
  | 0, _, _ => none
  | n + 1, w, x =>
    (w.objs x).bind fun o => (detach w x o).bind fun w => (destroyAll n w o.members.reverse).bind fun w => some (free w x)

/-- The destructors of the members of an object. -/
def destroyAll : Nat → World → List Nat → Option World
  | 0, _, _ => none
  | _ + 1, w, [] => some w
  | n + 1, w, c :: cs => (clear n w c).bind fun w => destroyAll n (putC w c none) cs

/-- FUObject.h 248-257: `clear` of a container, also its destructor (245); for a reference, the destructor (167-179), where the pointer is
cleared before the release instead of never: nothing reads it any more. -/
def clear : Nat → World → Nat → Option World
  | 0, _, _ => none
  | n + 1, w, c =>
    match w.cons c with
    | none => none
    | some (.ref none) => some w
    | some (.ref (some x)) => (dropOwner (putC w c (some (.ref none))) c x).bind fun w => release n w x
    | some (.list l) =>
      match l.getLast? with
      | none => some w
      | some x => (dropOwner (putC w c (some (.list l.dropLast))) c x).bind fun w => (release n w x).bind fun w => clear n w c

end

/-- The objects of a live container. -/
def getList (w : World) (c : Nat) : Option (List Nat) := match w.cons c with | some (.list l) => some l | _ => none

/-- A new object, with new members: `kinds` tells for each member its number and whether it is a container (or a reference). -/
def create (w : World) (x : Nat) (kinds : List (Nat × Bool)) : Option World :=
  if w.objs x = none ∧ x ∉ w.freed ∧ (∀ k ∈ kinds, w.cons k.1 = none) then
    some (putO (kinds.foldl (fun w k => putC w k.1 (some (if k.2 then .list [] else .ref none))) w) x (some ⟨none, kinds.map Prod.fst⟩))
  else none

/-- A new container or reference that is not a member of an object. -/
def newOwner (w : World) (c : Nat) (isList : Bool) : Option World :=
  if w.cons c = none then some (putC w c (some (if isList then .list [] else .ref none))) else none

/-- FUObject.h 167-179, 245: the destructor of an owner that is not a member. -/
def deleteOwner (n : Nat) (w : World) (c : Nat) : Option World := (clear n w c).bind fun w => some (putC w c none)

/-- FUObject.h 304-308: `push_back`. -/
def pushBack (w : World) (c x : Nat) : Option World :=
  (getList w c).bind fun l => (attach w c x).bind fun w => some (putC w c (some (.list (l ++ [x]))))

/-- FUObject.h 314-323: `insert` at an index. -/
def insert (w : World) (c k x : Nat) : Option World :=
  (getList w c).bind fun l =>
  if k ≤ l.length then (attach w c x).bind fun w => some (putC w c (some (.list (l.take k ++ x :: l.drop k)))) else none

/-- FUObject.h 372-380, 462: `erase` at an index. -/
def eraseAt (n : Nat) (w : World) (c k : Nat) : Option World :=
  (getList w c).bind fun l =>
  (l[k]?).bind fun x => (dropOwner (putC w c (some (.list (l.take k ++ l.drop (k + 1))))) c x).bind fun w => release n w x

/-- FUObject.h 349-356: `pop_back`. -/
def popBack (n : Nat) (w : World) (c : Nat) : Option World :=
  (getList w c).bind fun l => if l = [] then some w else eraseAt n w c (l.length - 1)

/-- FUObject.h 361-368: `pop_front`. -/
def popFront (n : Nat) (w : World) (c : Nat) : Option World :=
  (getList w c).bind fun l => if l = [] then some w else eraseAt n w c 0

/-- FUObject.h 404-410: `erase` of a value. -/
def erase (n : Nat) (w : World) (c x : Nat) : Option World :=
  (getList w c).bind fun l => if x ∈ l then eraseAt n w c (l.idxOf x) else some w

/-- FUObject.h 416-423, 452-458: `Detach` of a value: the object is taken out of the container but not released. -/
def detachFrom (w : World) (c x : Nat) : Option World :=
  (getList w c).bind fun l => if x ∈ l then dropOwner (putC w c (some (.list (l.erase x)))) c x else some w

/-- FUObject.h 189: `if (_ptr != NULL) AttachObject(ptr)`. -/
def attachPtr (w : World) (c : Nat) : Option Nat → Option World
  | none => some w
  | some x => attach w c x

/-- FUObject.h 186: `if (ptr != NULL) ptr->Release()`. -/
def releasePtr (n : Nat) (w : World) : Option Nat → Option World
  | none => some w
  | some x => release n w x

/-- FUObject.h 184-191: `FUObjectRef::operator=(ObjectClass*)`. -/
def assign (n : Nat) (w : World) (c : Nat) (p : Option Nat) : Option World :=
  match w.cons c with
  | some (.ref q) =>
    (releasePtr n w q).bind fun w =>
    if w.cons c = some (.ref none) then attachPtr (putC w c (some (.ref p))) c p else some w
  | _ => none

/-- FUObject.h 199-204: `FUObjectRef::operator=(FUObjectRef&)`. -/
def exchange (n : Nat) (w : World) (c d : Nat) : Option World :=
  match w.cons d with
  | some (.ref p) => (assign n w c p).bind fun w => some (putC w d (some (.ref none)))
  | _ => none

end Verif.FOwn
