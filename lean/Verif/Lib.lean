import Verif.DocIds
import Verif.Owner
import Verif.Scene
import Verif.Builder

/-!
# Model of libraries, entity search and node sub ids (FCDocument/FCDLibrary.hpp, FCDEntity.cpp, FCDAnimation.cpp, FCDSceneNode.cpp, FCDocument.cpp)

Objects are numbered as in `DocIds`, `Owner` and `Scene`. `none` is undefined behaviour or more steps than allowed.
-/

namespace Verif.FLib

open Verif.FStr (Ch)
open Verif.FIds (Doc getDaeId)

/-! ## Libraries -/

/-- FCDLibrary.hpp 85-89: `AddEntity(T*)`; `c` is the container of the library. -/
def addEntity (w : FOwn.World) (c x : Nat) : Option FOwn.World := FOwn.pushBack w c x

/-- FCDLibrary.hpp 75-82: `AddEntity()`; the members of the new entity are `kinds`. -/
def addNewEntity (w : FOwn.World) (c x : Nat) (kinds : List (Nat × Bool)) : Option FOwn.World := (FOwn.create w x kinds).bind fun w => FOwn.pushBack w c x

/-- FCDLibrary.h 105-106: `GetEntity`; the outer `none` is undefined behaviour, the inner one is NULL. -/
def getEntity (w : FOwn.World) (c i : Nat) : Option (Option Nat) := (FOwn.getList w c).map fun l => l[i]?

/-! ## Search by id -/

/-- The loops of FCDSceneNode.cpp 169-174, FCDAnimation.cpp 97-102 and FCDLibrary.hpp 62-71: the first result that is not NULL and is accepted. -/
def findFirst (accept : Nat → Bool) (f : Doc → Nat → Option (Doc × Option Nat)) : Doc → List Nat → Option (Doc × Option Nat)
  | d, [] => some (d, none)
  | d, x :: xs => (f d x).bind fun r =>
    match r.2 with
    | some y => if accept y then some (r.1, some y) else findFirst accept f r.1 xs
    | none => findFirst accept f r.1 xs

/-- FCDSceneNode.cpp 165-175, FCDAnimation.cpp 93-103 and, for entities without children, FCDEntity.cpp 111-115: `FindDaeId`. `GetDaeId` gives an id to an
entity that has none. -/
def findIn (kids : Nat → List Nat) (id : List Ch) : Nat → Doc → Nat → Option (Doc × Option Nat)
  | 0, _, _ => none
  | n + 1, d, x => (getDaeId d x).bind fun r => if r.2 = id then some (r.1, some x) else findFirst (fun _ => true) (findIn kids id n) r.1 (kids x)

/-- FCDLibrary.hpp 51-72: `FindDaeId`; `cls` is `GetObjectType` and `want` is the class of the library. -/
def findDaeId (kids : Nat → List Nat) (cls : Nat → Nat) (want : Nat) (id : List Ch) (n : Nat) (d : Doc) (entities : List Nat) : Option (Doc × Option Nat) :=
  findFirst (fun y => cls y = want) (findIn kids id n) d entities

/-- FCDocument.cpp 222-246: `FindEntity`; the libraries with their classes, in order. -/
def findEntity (kids : Nat → List Nat) (cls : Nat → Nat) (id : List Ch) (n : Nat) : Doc → List (Nat × List Nat) → Option (Doc × Option Nat)
  | d, [] => some (d, none)
  | d, l :: ls => (findDaeId kids cls l.1 id n d l.2).bind fun r =>
    match r.2 with
    | some y => some (r.1, some y)
    | none => findEntity kids cls id n r.1 ls

/-! ## Sub ids of scene nodes -/

/-- The loop of FCDSceneNode.cpp 227-232. -/
def findSubFirst (f : Nat → Option (Option Nat)) : List Nat → Option (Option Nat)
  | [] => some none
  | x :: xs => (f x).bind fun r =>
    match r with
    | some y => some (some y)
    | none => findSubFirst f xs

/-- FCDSceneNode.cpp 223-233: `FindSubId`; `sub` are the sub ids of the nodes. -/
def findSubId (w : FScene.World) (sub : Nat → List Ch) (id : List Ch) : Nat → Nat → Option (Option Nat)
  | 0, _ => none
  | n + 1, x => (w.nodes x).bind fun a => if sub x = id then some (some x) else findSubFirst (findSubId w sub id n) a.children

/-- FCDSceneNode.cpp 190-207: the parents that are not yet visited and the sub ids found so far. -/
def aboveLoop (w : FScene.World) (sub : Nat → List Ch) : Nat → Nat → List Nat → List (List Ch) → Option (List (List Ch))
  | 0, _, _, _ => none
  | n + 1, cur, pending, ids =>
    (w.nodes cur).bind fun a =>
    match pending ++ a.parents with
    | [] => some (ids ++ (a.parents.map sub).filter (· ≠ []))
    | p :: rest => aboveLoop w sub n p rest (ids ++ (a.parents.map sub).filter (· ≠ []))

/-- FCDSceneNode.cpp 212-218: `k` is `idMod`, and the first number is the number of rounds left before the loop is left. -/
def subLoop (taken : List Ch → Option Bool) (id : List Ch) : Nat → Nat → List Ch → Option (List Ch)
  | 0, _, cand => some cand
  | n + 1, k, cand => (taken cand).bind fun t => if t then subLoop taken id n (k + 1) (id ++ [95] ++ FBld.decimal k) else some cand

/-- FCDObjectWithId.h 105: `CleanSubId(const fm::string&)`, as a text. -/
def cleanSubId (t : List Ch) : Option (List Ch) := ((FXml.clean false (t ++ [0])).bind FStr.cStr).map (·.takeWhile (· ≠ 0))

/-- FCDSceneNode.cpp 212: the condition of the loop. -/
def isTaken (n : Nat) (w : FScene.World) (sub : Nat → List Ch) (x : Nat) (above : List (List Ch)) (t : List Ch) : Option Bool :=
  (findSubId w sub t n x).map fun r => r.isSome || above.contains t

/-- FCDSceneNode.cpp 177-220: `SetSubId`. -/
def setSubId (n : Nat) (w : FScene.World) (sub : Nat → List Ch) (x : Nat) (id : List Ch) : Option (Nat → List Ch) :=
  if id = [] then some (Function.update sub x [])
  else
    (aboveLoop w (Function.update sub x []) n x [] []).bind fun above =>
    (cleanSubId id).bind fun c =>
    (subLoop (isTaken n w (Function.update sub x []) x above) id 513 0 c).map fun t => Function.update sub x t

end Verif.FLib
