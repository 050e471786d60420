import Verif.ArcPInst
import Verif.ArcBodySpec

/-! # What instances of physics models should be after saving and loading -/

namespace Verif.FArc

open Verif.FEff (Text text)
open Verif.FConv (Ov DateTime shown)

/-- The parameters as they are read back (C176), if the inertia is accurate. -/
def parmsAfter (ov : Ov) (rnd : ℚ → ℚ) (len : V3 → ℚ) (vol : Solid → ℚ) (now : DateTime) (p : BodyParms) : BodyParms := { p with
  mass := shown rnd p.mass, density := 0, densityAccurate := false, inertia := shownVec rnd p.inertia, translate := shownVec rnd p.translate, axis := shownVec rnd p.axis, angle := shown rnd p.angle,
  material := p.material.map (pmatAfter ov rnd now), shapes := p.shapes.map (shapeAfter rnd len vol) }

/-- The instance of a rigid body as it is read back. -/
def instAfter (ov : Ov) (rnd : ℚ → ℚ) (len : V3 → ℚ) (vol : Solid → ℚ) (now : DateTime) (b : BodyInst) : BodyInst :=
  { b with velocity := shownVec rnd b.velocity, angular := shownVec rnd b.angular, parms := parmsAfter ov rnd len vol now b.parms }

/-- The instance of a rigid body can be saved and found again: no body before its body has the same id, its node is in the document, and its parameters are as for C176, with an accurate inertia. -/
structure GoodBodyInst (ov : Ov) (rnd : ℚ → ℚ) (m : PModel) (nodes : List Text) (b : BodyInst) : Prop where
  body : ∃ i r, b.body = some i ∧ m.bodies[i]? = some r ∧ Plain r.id ∧ ∀ j < i, ∀ q, m.bodies[j]? = some q → q.id ≠ r.id
  node : ∃ t, b.node = some t ∧ t ∈ nodes ∧ Plain t
  dynamic : IsFlag b.parms.dynamic
  material : ∀ x, b.parms.material = some x → GoodPMat ov rnd x
  shapes : ∀ s ∈ b.parms.shapes, GoodShape s
  inertia : b.parms.inertiaAccurate = true

/-- The instance of a rigid constraint can be found again. -/
def GoodCon (m : PModel) (c : Option Nat) : Prop := ∃ i s, c = some i ∧ m.constraints[i]? = some s ∧ Plain s ∧ ∀ j < i, m.constraints[j]? ≠ some s

/-- One of the two. -/
def GoodSub (ov : Ov) (rnd : ℚ → ℚ) (m : PModel) (nodes : List Text) : SubInst → Prop
  | .force _ => False
  | .body b => GoodBodyInst ov rnd m nodes b
  | .con c => GoodCon m c

/-- What is read back. -/
def subAfter (ov : Ov) (rnd : ℚ → ℚ) (len : V3 → ℚ) (vol : Solid → ℚ) (now : DateTime) : SubInst → SubInst
  | .body b => .body (instAfter ov rnd len vol now b)
  | s => s

end Verif.FArc
