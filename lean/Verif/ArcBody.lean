import Verif.ArcPShape
import Verif.ArcStd
import Verif.ArcRigid

/-!
# Model of the saving and loading of rigid body parameters and physics scenes (FArchiveXML/FAXPhysicsExport.cpp 262-331, FAXPhysicsImport.cpp 27-226, 873-925)

Animations, instances of materials, and the instances in a physics scene are left out. `none` is undefined behaviour or a number that is not finite.
-/

namespace Verif.FArc

open Verif.FEff (Text text)
open Verif.FConv (Ov DateTime)

/-- FCDPhysicsRigidBodyParameters.h 51-63, FCDPhysicsRigidBodyParameters.cpp 26-41: the parameters of a rigid body; `material` is the material it owns. -/
structure BodyParms where
  dynamic : ℚ := 1
  mass : ℚ := 1
  density : ℚ := 0
  densityAccurate : Bool := false
  inertia : V3 := (0, 0, 0)
  inertiaAccurate : Bool := false
  translate : V3 := (0, 0, 0)
  axis : V3 := (1, 0, 0)
  angle : ℚ := 0
  material : Option PMat := none
  shapes : List PShape := []

/-- FAXPhysicsExport.cpp 299-302: the frame of the mass. -/
def frameElem (fmt : ℚ → Text) (p : BodyParms) : Node := .elem (text "mass_frame") [] []
  [textChild (text "translate") (vecText fmt p.translate), valueChild (text "rotate") (numsText fmt [p.axis.1, p.axis.2.1, p.axis.2.2, p.angle])]

/-- FAXPhysicsExport.cpp 303-306: the inertia is written if it is accurate. -/
def inertiaKid (fmt : ℚ → Text) (p : BodyParms) : List Node := if p.inertiaAccurate then [textChild (text "inertia") (vecText fmt p.inertia)] else []

/-- FAXPhysicsExport.cpp 308-313: the material. -/
def ownKid (ov : Ov) (fmt : ℚ → Text) (now : DateTime) : Option PMat → Option (List Node × Option PMat)
  | none => some ([], none)
  | some m => (writePMat ov fmt now m).map fun r => ([r.1], some r.2)

/-- FAXPhysicsExport.cpp 295-331: `WritePhysicsRigidBodyParameters`: the children that are added, and the parameters afterwards. -/
def writeBodyParms (ov : Ov) (fmt : ℚ → Text) (now : DateTime) (p : BodyParms) : Option (List Node × BodyParms) :=
  (ownKid ov fmt now p.material).bind fun m => (p.shapes.mapM (writePShape ov fmt now)).map fun ss =>
    ([textChild (text "dynamic") (numText fmt p.dynamic), textChild (text "mass") (numText fmt p.mass), frameElem fmt p] ++ inertiaKid fmt p ++ m.1 ++ ss.map Prod.fst,
      { p with material := m.2, shapes := ss.map Prod.snd })

/-- FAXPhysicsImport.cpp 38-40: the flag if there is no element for it; that of the default parameters is rounded. -/
def dynamicOf (p : BodyParms) : Option BodyParms → ℚ
  | some d => if 1 / 2 < d.dynamic then 1 else 0
  | none => p.dynamic

/-- FAXPhysicsImport.cpp 31-44: the flag. -/
def bodyDynamic (d : Option BodyParms) (p : BodyParms) (n : Node) : Option ℚ := flagIn n (text "dynamic") (dynamicOf p d)

/-- FAXPhysicsImport.cpp 46-107: the translation of the frame: without a frame the same is done as for a frame without this element. -/
def bodyTranslate (ov : Ov) (d : Option BodyParms) (n : Node) : Option V3 := vecIn ov (n.child (text "mass_frame")) (text "translate") ((d.map BodyParms.translate).getD (0, 0, 0))

/-- FAXPhysicsImport.cpp 46-107: the rotation of the frame. -/
def bodyRotate (ov : Ov) (d : Option BodyParms) (n : Node) : Option (V3 × ℚ) := match (n.child (text "mass_frame")).bind (·.child (text "rotate")) with
  | some k => (readV4 ov k.direct).map fun v => ((v.1, v.2.1, v.2.2.1), v.2.2.2)
  | none => some ((d.map fun d => (d.axis, d.angle)).getD ((1, 0, 0), 0))

/-- FAXPhysicsImport.cpp 109-120: the shapes, each added at the end, and whether all were read. -/
def bodyShapes (ov : Ov) (len : V3 → ℚ) (vol : Solid → ℚ) (now : DateTime) (n : Node) (ss : List PShape) : Option (List PShape × Bool) :=
  (n.children (text "shape")).foldlM (fun (s : List PShape × Bool) k => (loadPShape ov len vol now {} k).map fun r => (s.1 ++ [r.1], s.2 && r.2)) (ss, true)

/-- FAXPhysicsImport.cpp 122-148: the material. -/
def bodyMaterial (ov : Ov) (now : DateTime) (p : BodyParms) (n : Node) : Option (Option PMat) := match n.child (text "physics_material") with
  | some k => (loadPMat ov now {} k).map some
  | none => some p.material

/-- FAXPhysicsImport.cpp 151-187: mass, density, and whether the density is more accurate; the density is the mean of those of the shapes, and the mass the sum. -/
def bodyMass (ov : Ov) (d : Option BodyParms) (ss : List PShape) (n : Node) : Option (ℚ × ℚ × Bool) := match n.child (text "mass"), d with
  | some k, _ => (readNum ov k.direct).map fun q => (q, 0, false)
  | none, some d => some (d.mass, d.density, d.densityAccurate)
  | none, none => if ss = [] then none else some ((ss.map fun s => s.mass.getD 0).sum, (ss.map fun s => s.density.getD 0).sum / ss.length, ss.any PShape.accurate)

/-- FAXPhysicsImport.cpp 190-224: the inertia, and whether it is accurate; `ball v m` is the inertia of a ball of volume v and mass m. -/
def bodyInertia (ov : Ov) (vol : Solid → ℚ) (ball : ℚ → ℚ → ℚ) (d : Option BodyParms) (ss : List PShape) (mass : ℚ) (n : Node) : Option (V3 × Bool) := match n.child (text "inertia"), d with
  | some k, _ => (readV3 ov k.direct).map fun v => (v, true)
  | none, some d => some (d.inertia, d.inertiaAccurate)
  | none, none => let i := ball ((ss.map fun s => volOf vol s.solid).sum) mass; some ((i, i, i), false)

/-- FAXPhysicsImport.cpp 27-226: `LoadPhysicsRigidBodyParameters` into parameters, and whether that is a success; `d` are the default parameters. -/
def loadBodyParms (ov : Ov) (len : V3 → ℚ) (vol : Solid → ℚ) (ball : ℚ → ℚ → ℚ) (now : DateTime) (d : Option BodyParms) (p : BodyParms) (n : Node) : Option (BodyParms × Bool) :=
  (bodyDynamic d p n).bind fun dy => (bodyTranslate ov d n).bind fun tr => (bodyRotate ov d n).bind fun ro => (bodyShapes ov len vol now n p.shapes).bind fun ss =>
    (bodyMaterial ov now p n).bind fun mt => (bodyMass ov d ss.1 n).bind fun ma => (bodyInertia ov vol ball d ss.1 ma.1 n).map fun i =>
      (⟨dy, ma.1, ma.2.1, ma.2.2, i.1, i.2, tr, ro.1, ro.2, mt, ss.1⟩, ss.2)

/-! ## Physics scenes -/

/-- FCDPhysicsScene.h, FCDPhysicsScene.cpp 29-33: a physics scene without its instances. -/
structure PScene where
  ent : Ent := {}
  gravity : V3 := (0, -98 / 10, 0)
  step : ℚ := 1

/-- FAXPhysicsExport.cpp 283-286: the values. -/
def sceneValues (fmt : ℚ → Text) (s : PScene) : Node := .elem (text "technique_common") [] [] [textChild (text "gravity") (vecText fmt s.gravity), valueChild (text "time_step") (numText fmt s.step)]

/-- FAXPhysicsExport.cpp 262-292: `WritePhysicsScene`: the element and the scene afterwards. -/
def writePScene (ov : Ov) (fmt : ℚ → Text) (now : DateTime) (s : PScene) : Option (Node × PScene) :=
  (writeEnt ov fmt now (text "physics_scene") s.ent [sceneValues fmt s]).map fun r => (r.1, { s with ent := r.2 })

/-- FAXPhysicsImport.cpp 896-905: the gravity: three numbers. -/
def gravityIn (ov : Ov) (k : Node) (old : V3) : Option V3 := match k.child (text "gravity") with
  | some g => readTriple ov g.direct
  | none => some old

/-- FAXPhysicsImport.cpp 884-914: one child of the scene. -/
def sceneStep (ov : Ov) (s : PScene) (k : Node) : Option PScene :=
  if k.name = text "technique_common" then
    (gravityIn ov k s.gravity).bind fun g => (floatIn ov (some k) (text "time_step") s.step).map fun t => { s with gravity := g, step := t }
  else some s

/-- FAXPhysicsImport.cpp 873-925: `LoadPhysicsScene` into a scene. -/
def loadPScene (ov : Ov) (now : DateTime) (s : PScene) (n : Node) : Option PScene :=
  (loadEnt ov now s.ent n).bind fun e => if n.name = text "physics_scene" then n.kids.foldlM (sceneStep ov) { s with ent := e } else some { s with ent := e }

end Verif.FArc
