import Verif.Unique

/-!
# Model of the cleaning of the sub-ids of instances (`CleanSubId` of FCDocument, and its use in FArchiveXML.cpp)

The unique names are those of Unique.lean. `none` is undefined behaviour there.
-/

namespace Verif.FSub

open Verif.FStr (Ch)
open Verif.FUniq (Names)

/-- The instances in one scope: each has its wanted sub-id and the instances in its own scope: the materials of a geometry instance, the instances in an instance of a physics model, none for the others. -/
inductive Insts
  | nil
  | cons (sub : List Ch) (own : Insts) (rest : Insts)
  deriving DecidableEq

/-- FCDEntityInstance.cpp 137-143: the sub-id of an instance becomes unique in its scope; an empty one is left. `insert` writes to its argument (FUUniqueStringMap.h 38). -/
def cleanOne (m : Names) (s : List Ch) : Option (Names × List Ch) := if s = [] then some (m, s) else FUniq.insert m s

/-- FCDEntityInstance.cpp 137-143, FCDGeometryInstance.cpp 133-143, FCDPhysicsModelInstance.cpp 96-106: the instances in a scope, one after the other, each followed by those in its own scope, which starts without names. -/
def clean : Names → Insts → Option (Names × Insts)
  | m, .nil => some (m, .nil)
  | m, .cons s own rest => (cleanOne m s).bind fun a => (clean FTree.Map.empty own).bind fun b => (clean a.1 rest).map fun c => (c.1, .cons a.2 b.2 c.2)

/-- FCDPhysicsModel.cpp 162-170, FCDPhysicsScene.cpp 90-103: the instances of a physics model, or of a physics scene: first those of force fields, then those of models. -/
def cleanScope (is : Insts) : Option Insts := (clean FTree.Map.empty is).map (·.2)

/-- Scene nodes: each has its instances and its children. -/
inductive Nodes
  | nil
  | cons (insts : Insts) (children : Nodes) (rest : Nodes)
  deriving DecidableEq

/-- FCDSceneNode.cpp 274-289: the nodes of a scene; each node is a scope of its own. FArchiveXML.cpp 829-837 does this for all visual scenes. -/
def cleanNodes : Nodes → Option Nodes
  | .nil => some .nil
  | .cons is children rest => (cleanScope is).bind fun a => (cleanNodes children).bind fun b => (cleanNodes rest).map fun c => .cons a b c

end Verif.FSub
