import Mathlib.Logic.Function.Basic
import Mathlib.Data.List.Basic

/-!
# Model of the scene graph (FCDocument/FCDSceneNode.cpp)

Scene nodes are numbered; a number stands for an address and is not used again. The parents and children of a node are tracked lists
(FCDSceneNode.h 60-61): an object that is released disappears from the tracked lists that contain it (Track.lean, C31); here this is one step.
Node transforms, instances, names and the flag that reports new children are not part of this model. `none` is undefined behaviour (the use of a
freed node) or more steps than allowed.
-/

namespace Verif.FScene

/-- FCDSceneNode.h 60-61. -/
structure Node where
  parents : List Nat
  children : List Nat
deriving DecidableEq

/-- The live scene nodes, and those deleted so far. -/
structure World where
  nodes : Nat → Option Node
  freed : List Nat

/-- Store a node. -/
def put (w : World) (x : Nat) (v : Node) : World := { w with nodes := Function.update w.nodes x (some v) }

/-- FCDSceneNode.cpp 45-57: a new node. -/
def create (w : World) (x : Nat) : Option World :=
  if w.nodes x = none ∧ x ∉ w.freed then some (put w x ⟨[], []⟩) else none

/-- FCDSceneNode.cpp 105-111: whether the loop returns false: the search for `y` among the queue and its ancestors. -/
def search (w : World) (y : Nat) : Nat → List Nat → Option Bool
  | 0, _ => none
  | n + 1, queue =>
    match queue.getLast? with
    | none => some false
    | some parent => if parent = y then some true else (w.nodes parent).bind fun p => search w y n (queue.dropLast ++ p.parents)

/-- FCDSceneNode.cpp 113-114. -/
def link (w : World) (x y : Nat) : Option World :=
  (w.nodes x).bind fun a =>
  (((put w x { a with children := a.children ++ [y] })).nodes y).bind fun b =>
  some (put (put w x { a with children := a.children ++ [y] }) y { b with parents := b.parents ++ [x] })

/-- FCDSceneNode.cpp 91-117: `AddChildNode`; `none` as a second argument is the NULL pointer. -/
def addChild (n : Nat) (w : World) (x : Nat) (y : Option Nat) : Option (Bool × World) :=
  (w.nodes x).bind fun a =>
  match y with
  | none => some (false, w)
  | some y =>
    if x = y then some (false, w)
    else if y ∈ a.children then some (false, w)
    else (search w y n a.parents).bind fun found =>
      if found then some (false, w) else (link w x y).bind fun w => some (true, w)

/-- FCDSceneNode.cpp 126-130: `RemoveChildNode`. -/
def removeChild (w : World) (x y : Nat) : Option World :=
  (w.nodes y).bind fun b =>
  ((put w y { b with parents := b.parents.erase x }).nodes x).bind fun a =>
  some (put (put w y { b with parents := b.parents.erase x }) x { a with children := a.children.erase y })

/-- FUTracker.cpp: the notification of the tracked lists: every list loses the released node. -/
def notify (w : World) (x : Nat) : World :=
  { w with nodes := fun z => (w.nodes z).map fun v => ⟨v.parents.filter (· ≠ x), v.children.filter (· ≠ x)⟩ }

mutual

/-- FUObjectType.h 103 and FCDSceneNode.cpp 59-88: `Release` notifies the tracked lists and runs the destructor; line 61 empties the list of
parents, the loop follows, and the node is gone. -/
def release : Nat → World → Nat → Option World
  | 0, _, _ => none
  | n + 1, w, x =>
    ((notify w x).nodes x).bind fun a =>
    (releaseChildren n (put (notify w x) x { a with parents := [] }) x).bind fun w =>
    some { nodes := Function.update w.nodes x none, freed := w.freed ++ [x] }

/-- FCDSceneNode.cpp 64-87: the children are released, first to last. `parents` is empty since line 61, so lines 72-85 find no other parent and
release the child, whether or not it has other parents. -/
def releaseChildren : Nat → World → Nat → Option World
  | 0, _, _ => none
  | n + 1, w, x =>
    (w.nodes x).bind fun a =>
    match a.children with
    | [] => some w
    | child :: _ =>
      (w.nodes child).bind fun b =>
      (release n (put w child { b with parents := b.parents.erase x }) child).bind fun w => releaseChildren n w x

end

end Verif.FScene
