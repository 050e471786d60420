import Mathlib.Data.List.Basic

/-!
# Model of the scene node iterator (FCDocument/FCDSceneNodeIterator.hpp)

The scene graph does not change while the iterator is built. `none` is undefined behaviour or more steps than allowed.
-/

namespace Verif.FIter

/-- What the iterator asks of the nodes: the children, the instances (the instanced node, or `none` for an instance of something else or of
nothing), and the first parent (FCDSceneNode.h 103, `none` for NULL). -/
structure Graph where
  children : Nat → List Nat
  insts : Nat → List (Option Nat)
  parent0 : Nat → Option Nat

/-- FCDSceneNodeIterator.hpp 31-46: what the breadth-first loop appends for one node. -/
def bfsNext (G : Graph) (pureOnly : Bool) (it : Nat) : List Nat :=
  ((G.children it).filter fun node => !pureOnly || G.parent0 node == some it) ++ (if pureOnly then [] else (G.insts it).filterMap id)

/-- FCDSceneNodeIterator.hpp 28-47: the breadth-first loop. -/
def bfsLoop (G : Graph) (pureOnly : Bool) : Nat → List Nat → Nat → Option (List Nat)
  | 0, _, _ => none
  | n + 1, queue, index =>
    match queue[index]? with
    | none => some queue
    | some it => bfsLoop G pureOnly n (queue ++ bfsNext G pureOnly it) (index + 1)

/-- FCDSceneNodeIterator.hpp 24-47. -/
def breadthFirst (n : Nat) (G : Graph) (pureOnly : Bool) (root : Nat) : Option (List Nat) := bfsLoop G pureOnly n [root] 0

/-- FCDSceneNodeIterator.hpp 68, 87. -/
def isLeaf (G : Graph) (x : Nat) : Bool := (G.children x).isEmpty && (G.insts x).isEmpty

/-- FCDSceneNodeIterator.hpp 80-99: the loop over the instances: the counter, the node to process, and the iteration queue. -/
def instLoop (G : Graph) : List (Option Nat) → Nat → List Nat → Nat × Option Nat × List Nat
  | [], i, queue => (i, none, queue)
  | none :: rest, i, queue => instLoop G rest (i + 1) queue
  | some add :: rest, i, queue => if isLeaf G add then instLoop G rest (i + 1) (queue ++ [add]) else (i + 1, some add, queue)

/-- FMArray.h 379-384, 418: the capacity of the processing queue after `push_back` on `size` elements. -/
def pushCap (cap size : Nat) : Nat := if size = cap then size + (if size > 31 then 32 else size + 1) else cap

/-- FCDSceneNodeIterator.hpp 58-106: the depth-first loop. The processing queue has its last element first. Line 95 increments the counter of an
element of the processing queue through a reference that line 94 may have invalidated: this is undefined behaviour when the queue is full. -/
def dfsLoop (G : Graph) (post pureOnly : Bool) : Nat → Nat → List (Nat × Nat) → List Nat → Option (List Nat)
  | 0, _, _, _ => none
  | _ + 1, _, [], queue => some queue
  | n + 1, cap, (it, second) :: st, queue =>
    match (G.children it)[second]? with
    | some add =>
      if pureOnly && G.parent0 add != some it then dfsLoop G post pureOnly n cap ((it, second + 1) :: st) queue
      else if isLeaf G add then dfsLoop G post pureOnly n cap ((it, second + 1) :: st) (queue ++ [add])
      else dfsLoop G post pureOnly n (pushCap cap (st.length + 1)) ((add, 0) :: (it, second + 1) :: st) (if post then queue else queue ++ [add])
    | none =>
      if second < (G.children it).length + (G.insts it).length ∧ pureOnly = false then
        match instLoop G ((G.insts it).drop (second - (G.children it).length)) second queue with
        | (second', none, queue') => dfsLoop G post pureOnly n cap ((it, second') :: st) queue'
        | (second', some add, queue') =>
          if st.length + 1 = cap then none else dfsLoop G post pureOnly n cap ((add, 0) :: (it, second') :: st) queue'
      else dfsLoop G post pureOnly n cap st (if post then queue ++ [it] else queue)

/-- FCDSceneNodeIterator.hpp 51-106. -/
def depthFirst (n : Nat) (G : Graph) (post pureOnly : Bool) (root : Nat) : Option (List Nat) :=
  dfsLoop G post pureOnly n 8 [(root, 0)] (if post then [] else [root])

/-- FCDSceneNodeIterator.hpp 119-122: `GetNode`. -/
def getNode (queue : List Nat) (iterator : Nat) : Option Nat := queue[iterator]?

/-- FCDSceneNodeIterator.hpp 125-129, FCDSceneNodeIterator.h 75: the nodes that a loop over the iterator meets until `IsDone`. -/
def visit (queue : List Nat) : Nat → Nat → List Nat
  | 0, _ => []
  | n + 1, iterator =>
    if iterator ≥ queue.length then [] else (getNode queue iterator).toList ++ visit queue n (iterator + 1)

end Verif.FIter
