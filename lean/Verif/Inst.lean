import Verif.Scene
import Verif.Uri

/-!
# Model of instances in the scene graph: ancestors, joints and skeleton roots (FCDocument/FCDEntityInstance.cpp, FCDControllerInstance.cpp, FCDSceneNode.cpp)

The scene graph is that of Scene.lean; it does not change during these calls. `ids` gives the identifier of every scene node. `none` is undefined behaviour or more
steps than allowed.
-/

namespace Verif.FInst

open Verif.FScene Verif.FStr

/-- FCDEntityInstance.cpp 123-134: the loop of `HasForParent`; the queue of nodes to look at, and the node that is looked for. -/
def climb (w : World) (node : Nat) : Nat → List Nat → Option Bool
  | 0, _ => none
  | _ + 1, [] => some false
  | n + 1, p :: queue => if p = node then some true else (w.nodes p).bind fun P => climb w node n (queue ++ P.parents)

/-- FCDEntityInstance.cpp 118-135: `HasForParent` of an instance with the parent `parent`; null pointers are `none`. -/
def hasForParent (w : World) (n : Nat) (parent node : Option Nat) : Option Bool :=
  match node, parent with
  | none, _ => some false
  | some _, none => some false
  | some x, some p => climb w x n [p]

/-- A controller instance: FCDControllerInstance.h 55, 53: the tracked list of joints, and the URIs of the roots. -/
structure Inst where
  joints : List Nat
  roots : List FUri.Uri

/-- FCDControllerInstance.cpp 83-92: `AddJoint`. The flag of the node is left out. -/
def addJoint (i : Inst) : Option Nat → Bool × Inst
  | none => (false, i)
  | some j => (true, { i with joints := i.joints ++ [j] })

/-- FCDControllerInstance.cpp 101-109: `FindJointIndex`; `k` is the counter. -/
def findJointIndex (j : Nat) : Nat → List Nat → Nat
  | _, [] => npos
  | k, x :: l => if x = j then k else findJointIndex j (k + 1) l

/-- FCDControllerInstance.cpp 63-72: whether a parent of the joint is in the list of joints. -/
def hasJointParent (joints : List Nat) : List Nat → Bool
  | [] => false
  | p :: l => if joints.contains p then true else hasJointParent joints l

/-- FCDControllerInstance.cpp 56-80: the loop of `CalculateRootIds` over the joints. -/
def rootIds (ov : FConv.Ov) (w : World) (ids : Nat → List Ch) (joints : List Nat) : List Nat → Option (List FUri.Uri)
  | [] => some []
  | j :: l =>
    (w.nodes j).bind fun a =>
    if hasJointParent joints a.parents then rootIds ov w ids joints l
    else (FUri.parse ov (35 :: ids j)).bind fun u => (rootIds ov w ids joints l).map (u :: ·)

/-- FCDControllerInstance.cpp 52-81: `CalculateRootIds`. -/
def calculateRootIds (ov : FConv.Ov) (w : World) (ids : Nat → List Ch) (i : Inst) : Option Inst :=
  (rootIds ov w ids i.joints i.joints).map fun r => { i with roots := r }

mutual

/-- FCDSceneNode.cpp 165-175: `FindDaeId`. -/
def findDaeId (w : World) (ids : Nat → List Ch) (id : List Ch) : Nat → Nat → Option (Option Nat)
  | 0, _ => none
  | n + 1, x => (w.nodes x).bind fun a => if ids x = id then some (some x) else findFirst w ids id n a.children

/-- FCDSceneNode.cpp 169-174 and FCDLibrary.hpp 60-68: the loops over children and over the entities of the library. -/
def findFirst (w : World) (ids : Nat → List Ch) (id : List Ch) : Nat → List Nat → Option (Option Nat)
  | 0, _ => none
  | _ + 1, [] => some none
  | n + 1, x :: l => (findDaeId w ids id n x).bind fun r => if r = none then findFirst w ids id n l else some r

end

/-- FCDControllerInstance.cpp 135-144: the loop of `FindSkeletonNodes`; FCDocument.cpp 221: `FindSceneNode` looks through the visual scenes. The result is the list of
nodes and the number of warnings. -/
def skeletonLoop (w : World) (ids : Nat → List Ch) (scenes : List Nat) (n : Nat) : List FUri.Uri → Option (List Nat × Nat)
  | [] => some ([], 0)
  | u :: l =>
    (findFirst w ids u.fragment n scenes).bind fun r => (skeletonLoop w ids scenes n l).map fun s =>
      match r with
      | some x => (x :: s.1, s.2)
      | none => (s.1, s.2 + 1)

/-- FCDControllerInstance.cpp 131-151: `FindSkeletonNodes`; `visual` is the instanced visual scene (FCDocument.cpp 161-167), or the null pointer. -/
def findSkeletonNodes (w : World) (ids : Nat → List Ch) (scenes : List Nat) (visual : Option Nat) (n : Nat) (i : Inst) : Option (List (Option Nat) × Nat) :=
  (skeletonLoop w ids scenes n i.roots).map fun s => if s.1 = [] then ([visual], s.2) else (s.1.map some, s.2)

end Verif.FInst
