import Verif.Inst
import Verif.Lib

/-!
# Model of the linking of joints and targets after loading (FArchiveXML/FAXInstanceImport.cpp, FAXImportLinking.cpp)

The scene graph is that of Scene.lean and the instances are those of Inst.lean; the skin is the one that `FindSkinController` gives (C107), with the names of its joints
and whether they are sub-ids (C153). `none` is undefined behaviour or more steps than allowed.
-/

namespace Verif.FJoint

open Verif.FStr Verif.FInst

/-- FCDSkinController.h and FAXStructures.h: the ids of the joints of a skin, and `jointAreSids`. -/
structure Skin where
  joints : List (List Ch)
  sids : Bool
deriving DecidableEq

/-- FAXInstanceImport.cpp 398-414: how one root is searched for a joint. -/
def boneIn (w : FScene.World) (ids sub : Nat → List Ch) (n : Nat) (sids : Bool) (jid : List Ch) (x : Nat) : Option (Option Nat) :=
  if sids then FLib.findSubId w sub jid n x else findDaeId w ids jid n x

/-- FAXInstanceImport.cpp 401-405, 410-414: the loops over the roots; a root that is the null pointer is used. -/
def boneNode (f : Nat → Option (Option Nat)) : List (Option Nat) → Option (Option Nat)
  | [] => some none
  | none :: _ => none
  | some x :: l => (f x).bind fun r =>
    match r with
    | some y => some (some y)
    | none => boneNode f l

/-- The instance, the nodes with the flag of a joint, and the number of warnings. -/
structure Linked where
  inst : Inst
  flagged : List Nat
  warnings : Nat

/-- FAXInstanceImport.cpp 417-424: what is done with the node that was found; FCDControllerInstance.cpp 83-92: `AddJoint` sets the flag of the node. -/
def linkBone (s : Linked) : Option Nat → Linked
  | some y => { s with inst := (addJoint s.inst (some y)).2, flagged := s.flagged ++ [y] }
  | none => { s with warnings := s.warnings + 1 }

/-- FAXInstanceImport.cpp 393-425: the loop over the joints of the skin. -/
def linkJoints (f : List Ch → Option (Option Nat)) : Linked → List (List Ch) → Option Linked
  | s, [] => some s
  | s, j :: l => (f j).bind fun r => linkJoints f (linkBone s r) l

/-- FAXInstanceImport.cpp 379-427: `LinkControllerInstance`; without a skin nothing is done. `flagged` are the nodes with the flag of a joint. -/
def linkController (w : FScene.World) (ids sub : Nat → List Ch) (scenes : List Nat) (visual : Option Nat) (n : Nat) (skin : Option Skin) (flagged : List Nat) (i : Inst) :
    Option Linked :=
  match skin with
  | none => some ⟨i, flagged, 0⟩
  | some k => (findSkeletonNodes w ids scenes visual n i).bind fun r =>
    linkJoints (fun j => boneNode (boneIn w ids sub n k.sids j) r.1) ⟨{ i with joints := [] }, flagged, r.2⟩ k.joints

/-- FAXImportLinking.cpp 208-235: `LinkTargetedEntity` for an entity with the target `cur` and the address `t` that was read: the target and the number of warnings. -/
def linkTarget (ov : FConv.Ov) (w : FScene.World) (ids : Nat → List Ch) (scenes : List Nat) (n : Nat) (t : List Ch) (cur : Option Nat) : Option (Option Nat × Nat) :=
  if t = [] then some (cur, 0)
  else (FUri.parse ov t).bind fun u =>
    if !FUri.isFile u.path && !u.fragment.isEmpty then (findFirst w ids u.fragment n scenes).map fun r => (r, if r.isSome then 0 else 1)
    else some (cur, 1)

end Verif.FJoint
