import Verif.ArcPModel
import Verif.ArcBodySpec
import Verif.ArcPInstSpec

/-! # What physics models should be after saving and loading -/

namespace Verif.FArc

open Verif.FEff (Text text)
open Verif.FConv (Ov DateTime shown)

/-- The rigid body as it is read back (C176). -/
def rbodyAfter (ov : Ov) (rnd : ℚ → ℚ) (len : V3 → ℚ) (vol : Solid → ℚ) (ball : ℚ → ℚ → ℚ) (now : DateTime) (r : RBody) : RBody := ⟨r.id, { r.parms with
  mass := shown rnd r.parms.mass, density := 0, densityAccurate := false, inertia := inertiaAfter rnd vol ball r.parms, translate := shownVec rnd r.parms.translate, axis := shownVec rnd r.parms.axis,
  angle := shown rnd r.parms.angle, material := r.parms.material.map (pmatAfter ov rnd now), shapes := r.parms.shapes.map (shapeAfter rnd len vol) }⟩

/-- The rigid constraint as it is read back (C175): the ends are the same. -/
def constraintAfter (rnd : ℚ → ℚ) (len : V3 → ℚ) (c : Constraint) : Constraint := { c with
  refPlaces := (sortedPlaces c.refPlaces).map (shownTrans rnd len), tarPlaces := (sortedPlaces c.tarPlaces).map (shownTrans rnd len), linearMin := shownVec rnd c.linearMin, linearMax := shownVec rnd c.linearMax,
  sctMin := shownVec rnd c.sctMin, sctMax := shownVec rnd c.sctMax, linearSpring := {}, angularSpring := {} }

/-- The physics model can be saved and loaded: its bodies are as for C176, its constraints as for C175, all names are plain, and its instances are elements of that name. -/
structure GoodPhysModel (ov : Ov) (rnd : ℚ → ℚ) (nodes : List Text) (m : PhysModel) : Prop where
  name : ∀ r ∈ m.bodies, Plain r.id
  dynamic : ∀ r ∈ m.bodies, IsFlag r.parms.dynamic
  material : ∀ r ∈ m.bodies, ∀ x, r.parms.material = some x → GoodPMat ov rnd x
  shapes : ∀ r ∈ m.bodies, ∀ s ∈ r.parms.shapes, GoodShape s
  sid : ∀ c ∈ m.constraints, Plain c.1
  flags : ∀ c ∈ m.constraints, IsFlag c.2.enabled ∧ IsFlag c.2.interpenetrate
  ends : ∀ c ∈ m.constraints, GoodAttach (m.bodies.map RBody.id) nodes c.2.ref ∧ GoodAttach (m.bodies.map RBody.id) nodes c.2.tar
  instances : ∀ k ∈ m.instances, k.name = text "instance_physics_model"

end Verif.FArc
