import Verif.Iter
import Verif.SceneSpec
import Mathlib.Logic.Relation

/-! # Orders of traversal -/

namespace Verif.FIter

/-- The nodes below a node, in order: its children (for pure children only those of which it is the first parent), then the instanced nodes (none
for pure children). -/
def kids (G : Graph) (pureOnly : Bool) (x : Nat) : List Nat :=
  if pureOnly then (G.children x).filter fun c => G.parent0 c = some x else G.children x ++ (G.insts x).filterMap id

/-- Textbook pre-order, to a given depth. -/
def preOrder (k : Nat → List Nat) : Nat → Nat → List Nat
  | 0, x => [x]
  | d + 1, x => x :: (k x).flatMap (preOrder k d)

/-- Textbook post-order, to a given depth. -/
def postOrder (k : Nat → List Nat) : Nat → Nat → List Nat
  | 0, x => [x]
  | d + 1, x => (k x).flatMap (postOrder k d) ++ [x]

/-- The nodes at a given distance below the root. -/
def level (k : Nat → List Nat) (root : Nat) : Nat → List Nat
  | 0 => [root]
  | d + 1 => (level k root d).flatMap k

/-- The graph below is acyclic, with a bound on the depth below each node. -/
def Ranked (k : Nat → List Nat) (rk : Nat → Nat) : Prop := ∀ x, ∀ y ∈ k x, rk y < rk x

/-- `z` is `x` or below `x`. -/
def Below (k : Nat → List Nat) (x z : Nat) : Prop := Relation.ReflTransGen (fun a b => b ∈ k a) x z

/-- Every node is below at most one node, at most once. -/
def Tree (k : Nat → List Nat) : Prop := (∀ x, (k x).Nodup) ∧ ∀ x y z, z ∈ k x → z ∈ k y → x = y

/-- All the levels of a hierarchy, one after the other, to a given depth. -/
def levelOrder (k : Nat → List Nat) (d root : Nat) : List Nat := (List.range (d + 1)).flatMap (level k root)

/-- What the iterator sees of a scene graph. -/
def graphOf (w : FScene.World) (insts : Nat → List (Option Nat)) : Graph where
  children x := (w.nodes x).elim [] FScene.Node.children
  insts := insts
  parent0 x := (w.nodes x).bind fun v => v.parents.head?

end Verif.FIter
