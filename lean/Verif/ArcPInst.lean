import Verif.ArcBody
import Verif.ArcTexLink

/-!
# Model of the saving and loading of instances of physics models (FArchiveXML/FAXInstanceExport.cpp 198-283, FAXInstanceImport.cpp 225-377)

The address, the sub-id, the name and the extra tree of instances are those of C156 and are left out: the model of an instance is given as what its address leads to. Animations and what saving changes in the assets of materials
(C176) are left out. `none` is undefined behaviour or a number that is not finite.
-/

namespace Verif.FArc

open Verif.FEff (Text text)
open Verif.FConv (Ov DateTime)

/-- FCDPhysicsRigidBody.h 40-59: a rigid body: its id, which is its sub-id as well, and its parameters. -/
structure RBody where
  id : Text
  parms : BodyParms

/-- FCDPhysicsModel.h: a physics model: its rigid bodies and the sub-ids of its rigid constraints. -/
structure PModel where
  bodies : List RBody
  constraints : List Text

/-- FCDPhysicsRigidBodyInstance.h 42-53: an instance of a rigid body: the place of the body in the model, the id of the scene node, the velocities and the parameters. -/
structure BodyInst where
  body : Option Nat := none
  node : Option Text := none
  velocity : V3 := (0, 0, 0)
  angular : V3 := (0, 0, 0)
  parms : BodyParms := {}

/-- FCDPhysicsModelInstance.h: an instance in an instance of a model: of a force field, given by its id, of a rigid body, or of a rigid constraint, given by its place in the model. -/
inductive SubInst where
  | force (field : Text)
  | body (b : BodyInst)
  | con (c : Option Nat)

/-- FCDEntity::FORCE_FIELD. -/
def SubInst.isForce : SubInst → Bool
  | .force _ => true
  | _ => false

/-- FCDEntity::PHYSICS_RIGID_BODY. -/
def SubInst.isBody : SubInst → Bool
  | .body _ => true
  | _ => false

/-- FCDEntity::PHYSICS_RIGID_CONSTRAINT. -/
def SubInst.isCon : SubInst → Bool
  | .con _ => true
  | _ => false

/-- FAXInstanceExport.cpp 243-264: `WritePhysicsRigidBodyInstance`: `GetTargetNode()` and `GetEntity()` are followed. -/
def writeBodyInst (ov : Ov) (fmt : ℚ → Text) (now : DateTime) (m : PModel) (b : BodyInst) : Option Node :=
  b.node.bind fun t => (b.body.bind fun i => m.bodies[i]?).bind fun r => (writeBodyParms ov fmt now b.parms).map fun p =>
    .elem (text "instance_rigid_body") [(text "target", 35 :: t), (text "body", r.id)] []
      [.elem (text "technique_common") [] [] (textChild (text "angular_velocity") (vecText fmt b.angular) :: textChild (text "velocity") (vecText fmt b.velocity) :: p.1)]

/-- FAXInstanceExport.cpp 266-283: `WritePhysicsRigidConstraintInstance`. -/
def conElem (m : PModel) (c : Option Nat) : Node := .elem (text "instance_rigid_constraint") (match c.bind (m.constraints[·]?) with
  | some s => [(text "constraint", s)]
  | none => []) [] []

/-- FAXInstanceExport.cpp 198-208, 243-283: the element of an instance. -/
def subElem (ov : Ov) (fmt : ℚ → Text) (now : DateTime) (m : PModel) : SubInst → Option Node
  | .force f => some (.elem (text "instance_force_field") [(text "url", 35 :: f)] [] [])
  | .body b => writeBodyInst ov fmt now m b
  | .con c => some (conElem m c)

/-- FAXInstanceExport.cpp 210-241: `WritePhysicsModelInstance`: force fields, then rigid bodies, then rigid constraints. -/
def writeModelInst (ov : Ov) (fmt : ℚ → Text) (now : DateTime) (m : PModel) (subs : List SubInst) : Option Node :=
  ((subs.filter SubInst.isForce ++ subs.filter SubInst.isBody ++ subs.filter SubInst.isCon).mapM (subElem ov fmt now m)).map fun ks => .elem (text "instance_physics_model") [] [] ks

/-- FCDPhysicsRigidBodyInstance.cpp 66-82: the parameters after `SetRigidBody` of a body with the parameters `d`, on new parameters. -/
def setBody (d : BodyParms) : BodyParms :=
  ⟨if 1 / 2 ≤ d.dynamic then 1 else 0, d.mass, d.density, d.densityAccurate, d.inertia, d.inertiaAccurate, d.translate, d.axis, d.angle, none, []⟩

/-- FAXInstanceImport.cpp 292: the scene node; `nodes` are the ids of the scene nodes of the document. -/
def sceneNodeOf (nodes : List Text) (t : Text) : Option Text := if dropHash t ∈ nodes then some (dropHash t) else none

/-- FAXInstanceImport.cpp 313-347: from the technique on, once the body at place `i`, with the parameters `d`, is set. -/
def loadBodyTech (ov : Ov) (len : V3 → ℚ) (vol : Solid → ℚ) (ball : ℚ → ℚ → ℚ) (now : DateTime) (i : Nat) (d : BodyParms) (node : Option Text) : Option Node → Option (BodyInst × Bool)
  | none => some (⟨some i, node, (0, 0, 0), (0, 0, 0), setBody d⟩, false)
  | some k => (vecIn ov (some k) (text "angular_velocity") (0, 0, 0)).bind fun a => (vecIn ov (some k) (text "velocity") (0, 0, 0)).bind fun v =>
      (loadBodyParms ov len vol ball now (some d) (setBody d) k).map fun q => (⟨some i, node, v, a, q.1⟩, true)

/-- FAXInstanceImport.cpp 276-348: `LoadPhysicsRigidBodyInstance` of a new instance in an instance of the model `m`: the instance and the status. Without a model line 344 follows the null `body`. -/
def loadBodyInst (ov : Ov) (len : V3 → ℚ) (vol : Solid → ℚ) (ball : ℚ → ℚ → ℚ) (now : DateTime) (m : Option PModel) (nodes : List Text) (n : Node) : Option (BodyInst × Bool) :=
  (prop (some n) (text "target")).bind fun t => (prop (some n) (text "body")).bind fun s => match m with
    | none => if (n.child (text "technique_common")).isSome then none else some ({ node := sceneNodeOf nodes t }, false)
    | some m => match m.bodies.findIdx? (fun r => decide (r.id = s)) with
      | none => some ({ node := sceneNodeOf nodes t }, false)
      | some i => (m.bodies[i]?).bind fun r => loadBodyTech ov len vol ball now i r.parms (sceneNodeOf nodes t) (n.child (text "technique_common"))

/-- FAXInstanceImport.cpp 350-377: `LoadPhysicsRigidConstraintInstance`: the place of the constraint. Without a model line 368 calls a function of the null `model`. -/
def loadConInst (m : Option PModel) (n : Node) : Option (Option Nat) :=
  (prop (some n) (text "constraint")).bind fun s => m.map fun m => m.constraints.findIdx? fun c => decide (c = s)

/-- FAXInstanceImport.cpp 225-274: `LoadPhysicsModelInstance`: rigid bodies, then rigid constraints, then force fields. `AddForceFieldInstance(NULL)` puts a null pointer into the container, which follows it (FCDPhysicsModelInstance.cpp
56-62, FCDEntityInstance.cpp 191, FUObject.h). -/
def loadModelInst (ov : Ov) (len : V3 → ℚ) (vol : Solid → ℚ) (ball : ℚ → ℚ → ℚ) (now : DateTime) (m : Option PModel) (nodes : List Text) (n : Node) : Option (List SubInst × Bool) :=
  ((n.children (text "instance_rigid_body")).mapM (loadBodyInst ov len vol ball now m nodes)).bind fun bs =>
    ((n.children (text "instance_rigid_constraint")).mapM (loadConInst m)).bind fun cs =>
      if n.children (text "instance_force_field") = [] then some (bs.map (fun b => .body b.1) ++ cs.map .con, bs.all (·.2)) else none

end Verif.FArc
