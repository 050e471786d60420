import Verif.ArcSolid
import Verif.ArcEntity

/-!
# Model of the saving and loading of physics materials and shapes (FArchiveXML/FAXPhysicsExport.cpp 27-60, 148-160, FAXPhysicsImport.cpp 245-364, 598-640)

Instances of geometries and of materials are left out: an `instance_geometry` is taken to be one whose geometry is not in the document, and of an `instance_physics_material` only the material inside it is looked at. The
transforms have no sub-ids; these are not read. `none` is undefined behaviour or a number that is not finite.
-/

namespace Verif.FArc

open Verif.FEff (Text text)
open Verif.FConv (Ov DateTime)

/-! ## Physics materials -/

/-- FCDPhysicsMaterial.h, FCDPhysicsMaterial.cpp 16-21: a physics material. -/
structure PMat where
  ent : Ent := {}
  staticFriction : ℚ := 0
  dynamicFriction : ℚ := 0
  restitution : ℚ := 0
deriving Inhabited

/-- FAXPhysicsExport.cpp 154-157: the values. -/
def pmatValues (fmt : ℚ → Text) (m : PMat) : Node := .elem (text "technique_common") [] []
  [valueChild (text "dynamic_friction") (numText fmt m.dynamicFriction), valueChild (text "restitution") (numText fmt m.restitution), valueChild (text "static_friction") (numText fmt m.staticFriction)]

/-- FAXPhysicsExport.cpp 148-160: `WritePhysicsMaterial`: the element and the material afterwards. -/
def writePMat (ov : Ov) (fmt : ℚ → Text) (now : DateTime) (m : PMat) : Option (Node × PMat) :=
  (writeEnt ov fmt now (text "physics_material") m.ent [pmatValues fmt m]).map fun r => (r.1, { m with ent := r.2 })

/-- A number in a child of an element that may be missing. -/
def floatIn (ov : Ov) (n : Option Node) (name : Text) (old : ℚ) : Option ℚ := match n.bind (·.child name) with
  | none => some old
  | some k => readNum ov k.direct

/-- FAXPhysicsImport.cpp 598-640: `LoadPhysicsMaterial` into a material; it is always successful. -/
def loadPMat (ov : Ov) (now : DateTime) (m : PMat) (n : Node) : Option PMat :=
  (loadEnt ov now m.ent n).bind fun s =>
    if n.name ≠ text "physics_material" then some { m with ent := s }
    else
      (floatIn ov (n.child (text "technique_common")) (text "static_friction") m.staticFriction).bind fun a =>
        (floatIn ov (n.child (text "technique_common")) (text "dynamic_friction") m.dynamicFriction).bind fun b =>
          (floatIn ov (n.child (text "technique_common")) (text "restitution") m.restitution).map fun c => ⟨s, a, b, c⟩

/-! ## Shapes -/

/-- FCDPhysicsShape.h, FCDPhysicsShape.cpp 27-38: a shape; `material` is the physics material it owns. -/
structure PShape where
  hollow : Bool := true
  mass : Option ℚ := none
  density : Option ℚ := none
  accurate : Bool := false
  material : Option PMat := none
  solid : Option Solid := none
  transforms : List Trans := []

/-- FAXPhysicsExport.cpp 34-35: the element of the mass; FCDPhysicsShape.cpp 161-167 for a mass that is not set. -/
def massKid (fmt : ℚ → Text) (s : PShape) : List Node :=
  if s.mass.getD 0 ≠ 0 ∧ s.accurate = false then [textChild (text "mass") (numText fmt (s.mass.getD 0))] else []

/-- FAXPhysicsExport.cpp 36-37: the element of the density. -/
def densityKid (fmt : ℚ → Text) (s : PShape) : List Node := if s.density.getD 0 ≠ 0 then [textChild (text "density") (numText fmt (s.density.getD 0))] else []

/-- FAXPhysicsExport.cpp 39-43: the element of the material: the writer of materials, which writes an element of the same name, is given a new element. -/
def materialKid (ov : Ov) (fmt : ℚ → Text) (now : DateTime) : Option PMat → Option (List Node × Option PMat)
  | none => some ([], none)
  | some m => (writePMat ov fmt now m).map fun r => ([.elem (text "physics_material") [] [] [r.1]], some r.2)

/-- FAXPhysicsExport.cpp 33: the element that says whether the shape is hollow. -/
def hollowKid (b : Bool) : Node := textChild (text "hollow") (text (if b then "true" else "false"))

/-- FAXPhysicsExport.cpp 27-60: `WritePhysicsShape`: the element and the shape afterwards. -/
def writePShape (ov : Ov) (fmt : ℚ → Text) (now : DateTime) (s : PShape) : Option (Node × PShape) :=
  (materialKid ov fmt now s.material).map fun r =>
    (.elem (text "shape") [] [] ([hollowKid s.hollow] ++ massKid fmt s ++ densityKid fmt s ++ r.1 ++ (s.solid.map (writeSolid fmt)).toList ++ s.transforms.map (transNode fmt)), { s with material := r.2 })

/-- FAXPhysicsImport.cpp 338: the kinds of transforms that are read. -/
def rigid : Trans → Bool
  | .translation _ => true
  | .rotation _ _ => true
  | _ => false

/-- FAXPhysicsImport.cpp 331-342: a child that may be a transform. -/
def placeStep (ov : Ov) (len : V3 → ℚ) (s : PShape × Bool) (k : Node) : Option (PShape × Bool) := match newTrans k.name with
  | none => some s
  | some t => if rigid t then (loadTransform ov len t k).map fun r => ({ s.1 with transforms := s.1.transforms ++ [r.1] }, s.2 && r.2) else some s

/-- FAXPhysicsImport.cpp 314-328: a child that may be an analytical shape: the success of what came before is forgotten. -/
def solidKid (ov : Ov) (len : V3 → ℚ) (s : PShape × Bool) (k : Node) : Option (PShape × Bool) := (loadSolid ov k).bind fun r => match r with
  | some x => some ({ s.1 with solid := some x }, true)
  | none => if k.name = text "asset" then some s else if k.name = text "extra" then some s else placeStep ov len s k

/-- FAXPhysicsImport.cpp 257-343: one child of the element of a shape. -/
def shapeStep (ov : Ov) (len : V3 → ℚ) (now : DateTime) (s : PShape × Bool) (k : Node) : Option (PShape × Bool) :=
  if k.name = text "hollow" then (readBool k.direct).map fun b => ({ s.1 with hollow := b }, s.2)
  else if k.name = text "mass" then (readNum ov k.direct).map fun q => ({ s.1 with mass := some q, accurate := false }, s.2)
  else if k.name = text "density" then (readNum ov k.direct).map fun q => ({ s.1 with density := some q, accurate := s.1.mass.isNone }, s.2)
  else if k.name = text "physics_material" then (loadPMat ov now {} k).map fun m => ({ s.1 with material := some m }, s.2)
  else if k.name = text "instance_physics_material" then
    if k.has (text "url") then some s else (loadPMat ov now {} k).map fun m => ({ s.1 with material := some m }, s.2)
  else if k.name = text "instance_geometry" then some s
  else solidKid ov len s k

/-- FCDPhysicsShape.cpp 193-240: the volume; `vol` is that of the analytical shapes. -/
def volOf (vol : Solid → ℚ) : Option Solid → ℚ
  | none => 1
  | some s => vol s

/-- FAXPhysicsImport.cpp 346-360: what is missing of mass and density. -/
def finishShape (vol : Solid → ℚ) (s : PShape) : Option PShape := match s.mass, s.density with
  | none, none => some { s with density := some 1, accurate := true, mass := some (1 * volOf vol s.solid) }
  | none, some d => some { s with mass := some (d * volOf vol s.solid) }
  | some m, none => if volOf vol s.solid = 0 then none else some { s with density := some (m / volOf vol s.solid) }
  | some _, some _ => some s

/-- FAXPhysicsImport.cpp 245-364: `LoadPhysicsShape` into a shape, and whether that is a success. -/
def loadPShape (ov : Ov) (len : V3 → ℚ) (vol : Solid → ℚ) (now : DateTime) (s : PShape) (n : Node) : Option (PShape × Bool) :=
  if n.name ≠ text "shape" then some (s, true)
  else (n.kids.foldlM (shapeStep ov len now) (s, true)).bind fun r => (finishShape vol r.1).map fun s => (s, r.2)

end Verif.FArc
