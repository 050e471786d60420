import Verif.Inst
import Verif.SceneSpec

/-!
# Specification of instances in the scene graph (C109, C110)
-/

namespace Verif.FInst

open Verif.FScene Verif.FStr

/-- `j` is a joint no parent of which is a joint. -/
def RootJoint (w : World) (joints : List Nat) (j : Nat) : Prop := j ∈ joints ∧ ∀ p, Parent w p j → p ∉ joints

/-- `x` is in one of the visual scenes. -/
def InScenes (w : World) (scenes : List Nat) (x : Nat) : Prop := ∃ s ∈ scenes, Desc w s x

end Verif.FInst
