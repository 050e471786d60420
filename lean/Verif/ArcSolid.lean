import Verif.ArcTrans

/-!
# Model of the saving and loading of analytical shapes (FArchiveXML/FAXPhysicsExport.cpp 74-147, FAXPhysicsImport.cpp 366-596)

The names, extra trees and notes of these objects, which are entities, are not written by the program and are left out.
-/

namespace Verif.FArc

open Verif.FEff (Text text)
open Verif.FConv (Ov)

/-- FCDPhysicsAnalyticalGeometry.h: the analytical shapes; radii are given along two axes. -/
inductive Solid where
  | box (half : V3)
  | plane (normal : V3) (d : ℚ)
  | sphere (radius : ℚ)
  | cylinder (height : ℚ) (radius : ℚ × ℚ)
  | capsule (height : ℚ) (radius : ℚ × ℚ)
  | taperedCylinder (height : ℚ) (radius radius2 : ℚ × ℚ)
  | taperedCapsule (height : ℚ) (radius radius2 : ℚ × ℚ)
deriving DecidableEq

/-- FUStringConversion.hpp 265-269: the text of a vector of two numbers. -/
def pairText (fmt : ℚ → Text) (v : ℚ × ℚ) : Text := numsText fmt [v.1, v.2]

/-- FAXPhysicsExport.cpp 74-147: the element of an analytical shape. The plane is put into a vector of four numbers `x y z w`, which are written in this order. -/
def writeSolid (fmt : ℚ → Text) : Solid → Node
  | .box h => .elem (text "box") [] [] [textChild (text "half_extents") (vecText fmt h)]
  | .capsule h r => .elem (text "capsule") [] [] [valueChild (text "height") (numText fmt h), textChild (text "radius") (pairText fmt r)]
  | .taperedCapsule h r r2 => .elem (text "tapered_capsule") [] []
      [valueChild (text "height") (numText fmt h), textChild (text "radius1") (pairText fmt r), textChild (text "radius2") (pairText fmt r2)]
  | .cylinder h r => .elem (text "cylinder") [] [] [valueChild (text "height") (numText fmt h), textChild (text "radius") (pairText fmt r)]
  | .taperedCylinder h r r2 => .elem (text "tapered_cylinder") [] []
      [valueChild (text "height") (numText fmt h), textChild (text "radius1") (pairText fmt r), textChild (text "radius2") (pairText fmt r2)]
  | .plane n d =>
    let w := n.1; let x := n.2.1; let y := n.2.2; let z := d
    .elem (text "plane") [] [] [textChild (text "equation") (numsText fmt [x, y, z, w])]
  | .sphere r => .elem (text "sphere") [] [] [valueChild (text "radius") (numText fmt r)]

/-- FAXPhysicsImport.cpp 314-328 and the constructors in FCDPhysicsAnalyticalGeometry.cpp: a new shape for the name of an element. -/
def newSolid (name : Text) : Option Solid :=
  if name = text "box" then some (.box (0, 0, 0))
  else if name = text "plane" then some (.plane (0, 0, 0) 0)
  else if name = text "sphere" then some (.sphere 0)
  else if name = text "cylinder" then some (.cylinder 0 (0, 0))
  else if name = text "capsule" then some (.capsule 0 (0, 0))
  else if name = text "tapered_capsule" then some (.taperedCapsule 0 (0, 0) (0, 0))
  else if name = text "tapered_cylinder" then some (.taperedCylinder 0 (0, 0) (0, 0))
  else none

/-- `ToFloat(&value)` two times. -/
def readPair (ov : Ov) (t : Text) : Option (ℚ × ℚ) := (FConv.readFloats ov 2 (t ++ [0])).bind fun r => match r.1 with
  | [a, b] => some (a, b)
  | _ => none

/-- `ToFloat(&value)` three times. -/
def readTriple (ov : Ov) (t : Text) : Option V3 := (FConv.readFloats ov 3 (t ++ [0])).bind fun r => match r.1 with
  | [a, b, c] => some (a, b, c)
  | _ => none

/-- `ToFloat(&value)` four times, FAXPhysicsImport.cpp 559-563. -/
def readPlane (ov : Ov) (t : Text) : Option (V3 × ℚ) := (FConv.readFloats ov 4 (t ++ [0])).bind fun r => match r.1 with
  | [a, b, c, d] => some ((a, b, c), d)
  | _ => none

/-- FAXPhysicsImport.cpp 372-596: one child of the element of an analytical shape. -/
def solidStep (ov : Ov) (s : Solid) (k : Node) : Option Solid := match s with
  | .box h => if k.name = text "half_extents" then (readTriple ov k.direct).map .box else some (.box h)
  | .capsule h r =>
    if k.name = text "height" then (readNum ov k.direct).map fun h => .capsule h r
    else if k.name = text "radius" then (readPair ov k.direct).map fun r => .capsule h r
    else some (.capsule h r)
  | .taperedCapsule h r r2 =>
    if k.name = text "height" then (readNum ov k.direct).map fun h => .taperedCapsule h r r2
    else if k.name = text "radius1" then (readPair ov k.direct).map fun r => .taperedCapsule h r r2
    else if k.name = text "radius2" then (readPair ov k.direct).map fun r2 => .taperedCapsule h r r2
    else some (.taperedCapsule h r r2)
  | .cylinder h r =>
    if k.name = text "height" then (readNum ov k.direct).map fun h => .cylinder h r
    else if k.name = text "radius" then (readPair ov k.direct).map fun r => .cylinder h r
    else some (.cylinder h r)
  | .taperedCylinder h r r2 =>
    if k.name = text "height" then (readNum ov k.direct).map fun h => .taperedCylinder h r r2
    else if k.name = text "radius1" then (readPair ov k.direct).map fun r => .taperedCylinder h r r2
    else if k.name = text "radius2" then (readPair ov k.direct).map fun r2 => .taperedCylinder h r r2
    else some (.taperedCylinder h r r2)
  | .plane n d => if k.name = text "equation" then (readPlane ov k.direct).map fun r => .plane r.1 r.2 else some (.plane n d)
  | .sphere r => if k.name = text "radius" then (readNum ov k.direct).map .sphere else some (.sphere r)

/-- FAXPhysicsImport.cpp 366-596: `LoadPhysicsAnalyticalGeometry`, for a new shape for the element; the loaders are always successful. -/
def loadSolid (ov : Ov) (n : Node) : Option (Option Solid) := match newSolid n.name with
  | none => some none
  | some s => (n.kids.foldlM (solidStep ov) s).map some

end Verif.FArc
