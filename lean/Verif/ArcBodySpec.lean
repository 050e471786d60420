import Verif.ArcBody
import Verif.ArcPShapeSpec
import Verif.ArcRigidSpec
import Verif.ArcCamSpec

/-! # What rigid body parameters should be after saving and loading -/

namespace Verif.FArc

open Verif.FEff (Text text)
open Verif.FConv (Ov DateTime shown)

/-- A shape that is kept by saving and loading; see C174. -/
def GoodShape (s : PShape) : Prop := NoPlane s ∧ GoodMass s ∧ s.material = none ∧ ∀ t ∈ s.transforms, IsRigid t

/-- The shape as it is read back; see C174. -/
def shapeAfter (rnd : ℚ → ℚ) (len : V3 → ℚ) (vol : Solid → ℚ) (s : PShape) : PShape := { s with
  mass := if s.accurate then s.density.map fun d => shown rnd d * volOf vol (s.solid.map (shownSolid rnd)) else s.mass.map (shown rnd), density := s.density.map (shown rnd),
  solid := s.solid.map (shownSolid rnd), transforms := s.transforms.map (shownTrans rnd len) }

/-- A material that can be saved; see C174. -/
def GoodPMat (ov : Ov) (rnd : ℚ → ℚ) (m : PMat) : Prop := (∃ ts es, m.ent.extra = ⟨[], ts⟩ :: es) ∧ GoodEnt ov rnd m.ent ∧ m.ent.target = []

/-- The extra information of a material as it is read back; see C145. -/
def pmatExtra (m : PMat) : FExtra.Extra := match m.ent.extra with
  | [] => []
  | t :: es => extraAfter m.ent t.techs es

/-- The material as it is read back; see C174. -/
def pmatAfter (ov : Ov) (rnd : ℚ → ℚ) (now : DateTime) (m : PMat) : PMat := ⟨entAfter ov rnd now m.ent (pmatExtra m), shown rnd m.staticFriction, shown rnd m.dynamicFriction, shown rnd m.restitution⟩

/-- The inertia as it is read back: it is computed if it is not accurate. -/
def inertiaAfter (rnd : ℚ → ℚ) (vol : Solid → ℚ) (ball : ℚ → ℚ → ℚ) (p : BodyParms) : V3 :=
  if p.inertiaAccurate then shownVec rnd p.inertia
  else (ball ((p.shapes.map fun s => volOf vol (s.solid.map (shownSolid rnd))).sum) (shown rnd p.mass), ball ((p.shapes.map fun s => volOf vol (s.solid.map (shownSolid rnd))).sum) (shown rnd p.mass),
    ball ((p.shapes.map fun s => volOf vol (s.solid.map (shownSolid rnd))).sum) (shown rnd p.mass))

end Verif.FArc
