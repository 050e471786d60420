import Verif.ArcTrans
import Verif.ArcLight

/-!
# Model of the saving and loading of rigid constraints (FArchiveXML/FAXPhysicsExport.cpp 199-260, FAXPhysicsImport.cpp 709-871)

The common part of the entity is that of C145 and the sub-id that of C144; both are left out, as are animations. The transforms have no sub-ids; these are not read. `none` is undefined behaviour or a number that is not finite.
-/

namespace Verif.FArc

open Verif.FEff (Text text)
open Verif.FConv (Ov)

/-- FCDPhysicsRigidConstraint.h 54-57: what one end is fixed to: a rigid body, given by its place in the physics model, a scene node, given by its id, or nothing. -/
inductive Attach where
  | body (i : Nat)
  | node (id : Text)
  | nothing
deriving DecidableEq

/-- FCDPhysicsRigidConstraint.h 64-70, FCDPhysicsRigidConstraint.cpp 34-39: a spring. -/
structure Spring where
  stiffness : ℚ := 1
  damping : ℚ := 0
  target : ℚ := 0
deriving DecidableEq

/-- FCDPhysicsRigidConstraint.h, FCDPhysicsRigidConstraint.cpp 25-40: a rigid constraint. -/
structure Constraint where
  enabled : ℚ := 1
  interpenetrate : ℚ := 0
  ref : Attach := .nothing
  tar : Attach := .nothing
  refPlaces : List Trans := []
  tarPlaces : List Trans := []
  linearMin : V3 := (0, 0, 0)
  linearMax : V3 := (0, 0, 0)
  sctMin : V3 := (0, 0, 0)
  sctMax : V3 := (0, 0, 0)
  linearSpring : Spring := {}
  angularSpring : Spring := {}
deriving DecidableEq

/-- FAXPhysicsExport.cpp 208, 216: the text for an end; `bodies` are the sub-ids of the rigid bodies of the model. -/
def attachText (bodies : List Text) : Attach → Text
  | .body i => bodies.getD i []
  | .node id => id
  | .nothing => []

/-- FAXPhysicsExport.cpp 207-213, 215-221: the element of an end. -/
def attachElem (fmt : ℚ → Text) (bodies : List Text) (name : Text) (a : Attach) (ts : List Trans) : Node := .elem name [(text "rigid_body", attachText bodies a)] [] (ts.map (transNode fmt))

/-- FAXPhysicsExport.cpp 239-245: the limits of one kind. -/
def limitElem (fmt : ℚ → Text) (name : Text) (lo hi : V3) : Node := .elem name [] [] [valueChild (text "min") (vecText fmt lo), valueChild (text "max") (vecText fmt hi)]

/-- FAXPhysicsExport.cpp 248-256: a spring of one kind. -/
def springElem (fmt : ℚ → Text) (name : Text) (s : Spring) : Node := .elem name [] []
  [valueChild (text "stiffness") (numText fmt s.stiffness), valueChild (text "damping") (numText fmt s.damping), valueChild (text "target_value") (numText fmt s.target)]

/-- FAXPhysicsExport.cpp 223-256: the element of the values. -/
def constraintValues (fmt : ℚ → Text) (c : Constraint) : Node := .elem (text "technique_common") [] []
  [valueChild (text "enabled") (numText fmt c.enabled), valueChild (text "interpenetrate") (numText fmt c.interpenetrate),
   .elem (text "limits") [] [] [limitElem fmt (text "swing_cone_and_twist") c.sctMin c.sctMax, limitElem fmt (text "linear") c.linearMin c.linearMax],
   .elem (text "spring") [] [] [springElem fmt (text "angular") c.angularSpring, springElem fmt (text "linear") c.linearSpring]]

/-- FAXPhysicsExport.cpp 199-260: the children of the element of a rigid constraint that are neither asset nor extra trees. -/
def constraintKids (fmt : ℚ → Text) (bodies : List Text) (c : Constraint) : List Node :=
  [attachElem fmt bodies (text "ref_attachment") c.ref c.refPlaces, attachElem fmt bodies (text "attachment") c.tar c.tarPlaces, constraintValues fmt c]

/-- FAXPhysicsImport.cpp 745-754, 765-774 and FCDPhysicsModel.cpp 86-93: the end that a text stands for; `nodes` are the ids of the scene nodes of the document. -/
def findAttach (bodies nodes : List Text) (t : Text) : Attach := match bodies.findIdx? (· = t) with
  | some i => .body i
  | none => if t ∈ nodes then .node t else .nothing

/-- FAXPhysicsImport.cpp 723-736: `PARSE_TRANSFORM`: the children of one name are read as new transforms; the success is that of the last one. -/
def loadPlaces (ov : Ov) (len : V3 → ℚ) (name : Text) (n : Option Node) (s : List Trans × Bool) : Option (List Trans × Bool) :=
  ((n.map (·.children name)).getD []).foldlM (fun s k => (newTrans name).bind fun o => (loadTransform ov len o k).map fun r => (s.1 ++ [r.1], r.2)) s

/-- FAXPhysicsImport.cpp 740-757, 760-777: one end: the end, the transforms and the success. -/
def loadEnd (ov : Ov) (len : V3 → ℚ) (bodies nodes : List Text) (n : Option Node) (st : Bool) : Option (Attach × List Trans × Bool) :=
  (prop n (text "rigid_body")).bind fun t => (loadPlaces ov len (text "rotate") n ([], st)).bind fun r => (loadPlaces ov len (text "translate") n r).map fun r => (findAttach bodies nodes t, r.1, r.2)

/-- FAXPhysicsImport.cpp 790-801, FCDPhysicsRigidConstraint.h 185, 195: a flag in a child. -/
def flagIn (n : Node) (name : Text) (old : ℚ) : Option ℚ := match n.child name with
  | none => some old
  | some k => (readBool k.direct).map fun b => if b then 1 else 0

/-- FAXPhysicsImport.cpp 803-839: a vector in a child of an element that may be missing. -/
def vecIn (ov : Ov) (n : Option Node) (name : Text) (old : V3) : Option V3 := match n.bind (·.child name) with
  | none => some old
  | some k => readV3 ov k.direct

/-- FAXPhysicsImport.cpp 847-853, 859-865: a number in a child, if there is one. -/
def numIn (ov : Ov) (k : Option Node) (old : ℚ) : Option ℚ := match k with
  | none => some old
  | some k => readNum ov k.direct

/-- FAXPhysicsImport.cpp 844-854, 856-866: a spring of one kind. -/
def loadSpring (ov : Ov) (n : Option Node) (s : Spring) : Option Spring := match n with
  | none => some s
  | some n => (numIn ov (n.child (text "damping")) s.damping).bind fun d => (numIn ov (n.child (text "stiffness")) s.stiffness).bind fun k =>
    (numIn ov ((n.child (text "target_value")).or (n.child (text "rest_length"))) s.target).map fun t => ⟨k, d, t⟩

/-- FAXPhysicsImport.cpp 790-867: the values of a constraint: flags and limits are looked for in the technique, springs in the element `n` of the constraint. -/
def loadValues (ov : Ov) (n tech : Node) (c : Constraint) : Option Constraint :=
  (flagIn tech (text "enabled") c.enabled).bind fun e => (flagIn tech (text "interpenetrate") c.interpenetrate).bind fun i =>
    (vecIn ov ((tech.child (text "limits")).bind (·.child (text "linear"))) (text "min") c.linearMin).bind fun a =>
    (vecIn ov ((tech.child (text "limits")).bind (·.child (text "linear"))) (text "max") c.linearMax).bind fun b =>
    (vecIn ov ((tech.child (text "limits")).bind (·.child (text "swing_cone_and_twist"))) (text "min") c.sctMin).bind fun d =>
    (vecIn ov ((tech.child (text "limits")).bind (·.child (text "swing_cone_and_twist"))) (text "max") c.sctMax).bind fun f =>
    (loadSpring ov ((n.child (text "spring")).bind (·.child (text "linear"))) c.linearSpring).bind fun l =>
    (loadSpring ov ((n.child (text "spring")).bind (·.child (text "angular"))) c.angularSpring).map fun g =>
      ⟨e, i, c.ref, c.tar, c.refPlaces, c.tarPlaces, a, b, d, f, l, g⟩

/-- FAXPhysicsImport.cpp 709-871: `LoadPhysicsRigidConstraint` into a new constraint, from an element of the right name, and whether that is a success. -/
def loadConstraint (ov : Ov) (len : V3 → ℚ) (bodies nodes : List Text) (n : Node) : Option (Constraint × Bool) :=
  (loadEnd ov len bodies nodes (n.child (text "ref_attachment")) true).bind fun r => (loadEnd ov len bodies nodes (n.child (text "attachment")) r.2.2).bind fun t =>
    match n.child (text "technique_common") with
    | none => some ({ ref := r.1, tar := t.1, refPlaces := r.2.1, tarPlaces := t.2.1 }, t.2.2)
    | some tech => (loadValues ov n tech { ref := r.1, tar := t.1, refPlaces := r.2.1, tarPlaces := t.2.1 }).map fun c => (c, t.2.2)

end Verif.FArc
