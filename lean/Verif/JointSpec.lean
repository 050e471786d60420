import Verif.Joint
import Verif.InstSpec

/-!
# Specification of the linking of joints and targets (C159)
-/

namespace Verif.FJoint

open Verif.FStr Verif.FScene

/-- `r` is what a joint with the name `j` is linked to: a node with this name below the first of the roots that has one, or nothing if no root has one. -/
def Bone (w : World) (name : Nat → List Ch) (roots : List Nat) (j : List Ch) : Option Nat → Prop
  | some y => name y = j ∧ ∃ before r after, roots = before ++ r :: after ∧ Desc w r y ∧ ∀ b ∈ before, ∀ z, Desc w b z → name z ≠ j
  | none => ∀ r ∈ roots, ∀ z, Desc w r z → name z ≠ j

/-- The names by which joints are looked for. -/
def nameOf (ids sub : Nat → List Ch) (sids : Bool) : Nat → List Ch := if sids then sub else ids

/-- The nodes in a list of results. -/
def nodesOf (l : List (Option Nat)) : List Nat := l.filterMap id

end Verif.FJoint
