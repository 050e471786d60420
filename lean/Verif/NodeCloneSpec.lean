import Verif.NodeClone
import Verif.XformSpec

/-! # Places below a node -/

namespace Verif.FXform

open Verif.Geo

/-- The node reached from `x` by taking the child with the first index, then its child with the second index, and so on. -/
def follow (w : FScene.World) : List Nat → Nat → Option Nat
  | [], x => some x
  | i :: path, x => (w.nodes x).bind fun a => (a.children[i]?).bind (follow w path)

/-- The information of the node of a tree. -/
def Tree.info : Tree → Info
  | .node i _ => i

/-- The children of the node of a tree. -/
def Tree.children : Tree → List Tree
  | .node _ l => l

/-- The subtree at the same place. -/
def Tree.at : List Nat → Tree → Option Tree
  | [], t => some t
  | i :: path, t => (t.children[i]?).bind (Tree.at path)

/-- The number of nodes of a tree. -/
def Tree.size : Tree → Nat
  | .node _ l => 1 + (l.attach.map fun t => t.1.size).sum
  decreasing_by
    have := List.sizeOf_lt_of_mem t.2
    simp only [Tree.node.sizeOf_spec]
    omega

/-- What a clone has at a place: as many children, the flags and the values of the transforms. -/
def Matches (w : FScene.World) (info : Nat → Info) (x : Nat) (t : Tree) : Prop :=
  ∀ path, (∀ y, follow w path x = some y → ∃ a u, w.nodes y = some a ∧ t.at path = some u ∧ u.children.length = a.children.length ∧
      u.info.joint = (info y).joint ∧ u.info.visibility = (info y).visibility ∧
      u.info.transforms.map (·.value) = (info y).transforms.map (·.value) ∧ toMatrix u.info.transforms = toMatrix (info y).transforms) ∧
    (follow w path x = none → t.at path = none)

end Verif.FXform
