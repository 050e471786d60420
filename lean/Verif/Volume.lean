import Verif.Geo
import Mathlib.Analysis.Real.Pi.Bounds

/-!
# Analytical shapes and their volumes

FMath/FMVolume.cpp and FCDocument/FCDPhysicsAnalyticalGeometry.cpp (`FCDPAS...`). Single-precision numbers are real numbers here, and `FMath::Pi` is π.
-/

namespace Verif.FPhys

open Verif.Geo (V3)

/-- FMVector2.h: a vector of two numbers. -/
@[ext] structure V2 (R : Type) where
  x : R
  y : R
deriving DecidableEq

/-- FCDPhysicsAnalyticalGeometry.h: the analytical geometries with their members; the identifier, the name and the extra tree of the entity are left out. -/
inductive Anal (R : Type) where
  | box (halfExtents : V3 R)
  | plane (normal : V3 R) (d : R)
  | sphere (radius : R)
  | cylinder (radius : V2 R) (height : R)
  | capsule (radius : V2 R) (height : R)
  | taperedCylinder (radius radius2 : V2 R) (height : R)
  | taperedCapsule (radius radius2 : V2 R) (height : R)
deriving DecidableEq

/-! ## FMVolume.cpp -/

noncomputable section

/-- FMVolume.cpp 14-17: `CalculateBoxVolume`. -/
def boxVolume (h : V3 ℝ) : ℝ := (h.x * 2) * (h.y * 2) * (h.z * 2)

/-- FMVolume.cpp 24-27: `CalculateEllipsoidVolume`. -/
def ellipsoidVolume (r1 r2 r3 : ℝ) : ℝ := (4 * Real.pi * r1 * r2 * r3) / 3

/-- FMVolume.cpp 19-22: `CalculateSphereVolume`. -/
def sphereVolume (r : ℝ) : ℝ := ellipsoidVolume r r r

/-- FMVolume.cpp 29-32: `CalculateEllipsoidEndVolume`. -/
def ellipsoidEndVolume (r : V2 ℝ) : ℝ := ellipsoidVolume r.x r.y (max r.x r.y)

/-- FMVolume.cpp 34-37: `CalculateCylinderVolume`. -/
def cylinderVolume (r : V2 ℝ) (h : ℝ) : ℝ := Real.pi * r.x * r.y * h

/-- FMVolume.cpp 39-43: `CalculateCapsuleVolume`. -/
def capsuleVolume (r : V2 ℝ) (h : ℝ) : ℝ := cylinderVolume r h + ellipsoidEndVolume r

/-- FMVolume.cpp 45-48: `CalculateConeVolume`. -/
def coneVolume (r : V2 ℝ) (h : ℝ) : ℝ := Real.pi * r.x * r.y * h / 3

/-- FMVolume.cpp 50-55: `CalculateTaperedCylinderVolume`. -/
def taperedCylinderVolume (r r2 : V2 ℝ) (h : ℝ) : ℝ := (2 * r.x * r.y + r.x * r2.y + r2.x * r.y + 2 * r2.x * r2.y) * Real.pi * h / 6

/-! ## FCDPhysicsAnalyticalGeometry.cpp -/

/-- FMFloat.h 24, 29: `IsEquivalent` of two numbers, with the tolerance 0.0001. -/
def equiv1 (a b : ℝ) : Prop := a - b < 1 / 10000 ∧ b - a < 1 / 10000

/-- FMVector2.h 140: `IsEquivalent` of two vectors. -/
def equiv2 (a b : V2 ℝ) : Prop := equiv1 a.x b.x ∧ equiv1 a.y b.y

open scoped Classical in
/-- FCDPhysicsAnalyticalGeometry.cpp 63-66, 94-97, 125-128, 159-162, 193-196, 225-236, 265-273: `CalculateVolume`. -/
def Anal.volume : Anal ℝ → ℝ
  | .box h => boxVolume h
  | .plane _ _ => 1
  | .sphere r => sphereVolume r
  | .cylinder r h => cylinderVolume r h
  | .capsule r h => capsuleVolume r h
  | .taperedCylinder r r2 h => if equiv2 r r2 then cylinderVolume r h else taperedCylinderVolume r r2 h
  | .taperedCapsule r r2 h =>
    if equiv2 r r2 then capsuleVolume r h else taperedCylinderVolume r r2 h + ellipsoidEndVolume r / 2 + ellipsoidEndVolume r2 / 2

end

end Verif.FPhys
