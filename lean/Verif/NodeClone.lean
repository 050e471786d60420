import Verif.Xform

/-!
# Model of the clones of scene nodes (FCDSceneNode.cpp 291-329)

The clone is made from scratch; its nodes are new, so that it is a tree. Instances, notes and names are left out.
-/

namespace Verif.FXform

/-- The simple information of a node (FCDSceneNode.cpp 302-303) and its transforms. -/
structure Info where
  joint : Bool
  visibility : ℝ
  transforms : List Transform

/-- A new node with its new children. -/
inductive Tree where
  | node (info : Info) (children : List Tree)

/-- FCDSceneNode.cpp 312-319: all of the clones have been made, or none. -/
def collect : List (Option Tree) → Option (List Tree)
  | [] => some []
  | none :: _ => none
  | some t :: l => (collect l).map (t :: ·)

/-- FCDSceneNode.cpp 291-329: `Clone`, with at most `n` nested calls; `info` is the information of the nodes. The clones of the children are made in order,
each on a new child node. -/
noncomputable def cloneNode (w : FScene.World) (info : Nat → Info) (cloneChildren : Bool) : Nat → Nat → Option Tree
  | 0, _ => none
  | n + 1, x =>
    (w.nodes x).bind fun a =>
    (if cloneChildren then collect (a.children.map (cloneNode w info cloneChildren n)) else some []).map fun l =>
    .node ⟨(info x).joint, (info x).visibility, cloneTransforms (info x).transforms []⟩ l

end Verif.FXform
