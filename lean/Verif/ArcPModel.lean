import Verif.ArcPInst
import Verif.ArcRigid
import Mathlib.Data.List.Sort

/-!
# Model of the saving and loading of physics models (FArchiveXML/FAXPhysicsExport.cpp 162-205, FAXPhysicsImport.cpp 228-243, 642-722)

The common parts of the entities are those of C145 and are left out, as are animations and what saving changes in the assets of materials (C176). Names are taken as they are: that sub-ids are cleaned and made unique is C27,
C28 and C82. The instances of other models are given as their elements, which are those of C183. `none` is undefined behaviour or a number that is not finite.
-/

namespace Verif.FArc

open Verif.FEff (Text text)
open Verif.FConv (Ov DateTime)

/-- FCDPhysicsModel.h 51-53: a physics model: its rigid bodies, its rigid constraints with their sub-ids, and the elements of its instances of other models. -/
structure PhysModel where
  bodies : List RBody := []
  constraints : List (Text × Constraint) := []
  instances : List Node := []

/-- FAXPhysicsExport.cpp 184-197: `WritePhysicsRigidBody`. -/
def writeRBody (ov : Ov) (fmt : ℚ → Text) (now : DateTime) (r : RBody) : Option Node :=
  (writeBodyParms ov fmt now r.parms).map fun p => .elem (text "rigid_body") [(text "sid", r.id)] [] [.elem (text "technique_common") [] [] p.1]

/-- FAXPhysicsExport.cpp 199-260: `WritePhysicsRigidConstraint`. -/
def writeRCon (fmt : ℚ → Text) (bodies : List Text) (c : Text × Constraint) : Node := .elem (text "rigid_constraint") [(text "sid", c.1)] [] (constraintKids fmt bodies c.2)

/-- FAXPhysicsExport.cpp 162-182: `WritePhysicsModel`. -/
def writePhysModel (ov : Ov) (fmt : ℚ → Text) (now : DateTime) (m : PhysModel) : Option Node :=
  (m.bodies.mapM (writeRBody ov fmt now)).map fun bs => .elem (text "physics_model") [] [] (m.instances ++ bs ++ m.constraints.map (writeRCon fmt (m.bodies.map RBody.id)))

/-- FAXPhysicsImport.cpp 680-707: `LoadPhysicsRigidBody` into a new body: the success of the loading of the parameters is not looked at. -/
def loadRBody (ov : Ov) (len : V3 → ℚ) (vol : Solid → ℚ) (ball : ℚ → ℚ → ℚ) (now : DateTime) (n : Node) : Option (RBody × Bool) :=
  (prop (some n) (text "sid")).bind fun s => match n.child (text "technique_common") with
    | some k => (loadBodyParms ov len vol ball now none {} k).map fun p => (⟨s, p.1⟩, true)
    | none => some (⟨s, {}⟩, true)

/-- FAXPhysicsImport.cpp 656-674: one child of the model: a rigid constraint is loaded with the rigid bodies that are there. -/
def modelStep (ov : Ov) (len : V3 → ℚ) (vol : Solid → ℚ) (ball : ℚ → ℚ → ℚ) (now : DateTime) (nodes : List Text) (s : PhysModel × Bool) (k : Node) : Option (PhysModel × Bool) :=
  if k.name = text "rigid_body" then (loadRBody ov len vol ball now k).map fun r => (⟨s.1.bodies ++ [r.1], s.1.constraints, s.1.instances⟩, s.2 && r.2)
  else if k.name = text "rigid_constraint" then
    (prop (some k) (text "sid")).bind fun t => (loadConstraint ov len (s.1.bodies.map RBody.id) nodes k).map fun r => (⟨s.1.bodies, s.1.constraints ++ [(t, r.1)], s.1.instances⟩, s.2 && r.2)
  else if k.name = text "instance_physics_model" then some (⟨s.1.bodies, s.1.constraints, s.1.instances ++ [k]⟩, s.2)
  else some s

/-- FAXPhysicsImport.cpp 642-678: `LoadPhysicsModel` into a new model; `nodes` are the ids of the scene nodes of the document. The instances are the ones that are left for later, in the order of the file. -/
def loadPhysModel (ov : Ov) (len : V3 → ℚ) (vol : Solid → ℚ) (ball : ℚ → ℚ → ℚ) (now : DateTime) (nodes : List Text) (n : Node) : Option (PhysModel × Bool) :=
  if n.name ≠ text "physics_model" then some ({}, true) else n.kids.foldlM (modelStep ov len vol ball now nodes) ({}, true)

/-- FAXPhysicsImport.cpp 228-243, FAXStructures.h 176: `AttachModelInstancesFCDPhysicsModel`: the instances in the order in which they are added to the model. They are kept in a map by the addresses of their elements: the
element number `i` is at `addr i`. -/
def attachOrder {A : Type} (addr : Nat → Nat) (l : List A) : List A := ((l.zipIdx.map fun x => (addr x.2, x.1)).insertionSort fun x y => x.1 ≤ y.1).map (·.2)

end Verif.FArc
