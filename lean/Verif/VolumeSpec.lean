import Verif.Volume
import Mathlib.MeasureTheory.Measure.Lebesgue.VolumeOfBalls

/-!
# Specification of the volumes (C98)

The solids are sets of points `(z, x, y)`, the axis of the solid first. Their volume is the Lebesgue measure.
-/

namespace Verif.FPhys

open Verif.Geo (V3)

/-- The points of space, the coordinate along the axis of the solid first. -/
abbrev Space := ℝ × ℝ × ℝ

/-- The unit disc. -/
def disc : Set (ℝ × ℝ) := {p | p.1 ^ 2 + p.2 ^ 2 ≤ 1}

/-- The unit ball. -/
def ball : Set Space := {p | p.1 ^ 2 + p.2.1 ^ 2 + p.2.2 ^ 2 ≤ 1}

/-- A box with the half lengths `h` of its sides. -/
def boxSolid (h : V3 ℝ) : Set Space := {p | |p.1| ≤ h.x ∧ |p.2.1| ≤ h.y ∧ |p.2.2| ≤ h.z}

/-- The unit ball stretched by `c` along the axis and by `a` and `b` across it. -/
def ellipsoidSolid (c a b : ℝ) : Set Space := (fun p : Space => (c * p.1, a * p.2.1, b * p.2.2)) '' ball

/-- A ball of radius `r`. -/
def sphereSolid (r : ℝ) : Set Space := {p | p.1 ^ 2 + p.2.1 ^ 2 + p.2.2 ^ 2 ≤ r ^ 2}

/-- The solid between the heights 0 and `h` whose cross-section at `z` is the ellipse with the radii `f z` and `g z`. -/
def crossSections (f g : ℝ → ℝ) (h : ℝ) : Set Space := (fun p : Space => (p.1, f p.1 * p.2.1, g p.1 * p.2.2)) '' (Set.Icc 0 h ×ˢ disc)

/-- An elliptical cylinder. -/
def cylinderSolid (r : V2 ℝ) (h : ℝ) : Set Space := crossSections (fun _ => r.x) (fun _ => r.y) h

/-- A tapered cylinder: the radii go linearly from `r` at the height 0 to `r2` at the height `h`. -/
def taperedSolid (r r2 : V2 ℝ) (h : ℝ) : Set Space :=
  crossSections (fun z => r.x + (r2.x - r.x) * (z / h)) (fun z => r.y + (r2.y - r.y) * (z / h)) h

/-- The half of an ellipsoid that closes a solid at its end: its cross-section at the end has the radii `r`, the radius along the axis is the larger of
them; `s` is 1 for the upper and -1 for the lower end, and `z0` is the height of the end. -/
def capSolid (r : V2 ℝ) (s z0 : ℝ) : Set Space :=
  (fun p : Space => (z0 + s * (max r.x r.y * p.1), r.x * p.2.1, r.y * p.2.2)) '' (ball ∩ {p | 0 ≤ p.1})

/-- A capsule that is tapered: a tapered cylinder with a half of an ellipsoid at either end. -/
def capsuleSolid (r r2 : V2 ℝ) (h : ℝ) : Set Space := taperedSolid r r2 h ∪ capSolid r (-1) 0 ∪ capSolid r2 1 h

/-- The solid `S` has the volume `v`. -/
def HasVolume (S : Set Space) (v : ℝ) : Prop := 0 ≤ v ∧ MeasureTheory.volume S = ENNReal.ofReal v

/-- The solid of an analytical geometry; a plane has none. -/
def Anal.solid : Anal ℝ → Option (Set Space)
  | .box h => some (boxSolid h)
  | .plane _ _ => none
  | .sphere r => some (sphereSolid r)
  | .cylinder r h => some (cylinderSolid r h)
  | .capsule r h => some (capsuleSolid r r h)
  | .taperedCylinder r r2 h => some (taperedSolid r r2 h)
  | .taperedCapsule r r2 h => some (capsuleSolid r r2 h)

def V2.Nonneg (v : V2 ℝ) : Prop := 0 ≤ v.x ∧ 0 ≤ v.y

/-- The sizes are not negative. -/
def Anal.Nonneg : Anal ℝ → Prop
  | .box h => 0 ≤ h.x ∧ 0 ≤ h.y ∧ 0 ≤ h.z
  | .plane _ _ => True
  | .sphere r => 0 ≤ r
  | .cylinder r h => r.Nonneg ∧ 0 ≤ h
  | .capsule r h => r.Nonneg ∧ 0 ≤ h
  | .taperedCylinder r r2 h => r.Nonneg ∧ r2.Nonneg ∧ 0 ≤ h
  | .taperedCapsule r r2 h => r.Nonneg ∧ r2.Nonneg ∧ 0 ≤ h

/-- The two radii of a tapered shape are equal or differ by more than the tolerance. -/
def Anal.Clear : Anal ℝ → Prop
  | .taperedCylinder r r2 _ => r = r2 ∨ ¬ equiv2 r r2
  | .taperedCapsule r r2 _ => r = r2 ∨ ¬ equiv2 r r2
  | _ => True

/-- The sizes that bound the error: the height and a bound of the radii. -/
def Anal.Sizes (a : Anal ℝ) (h M : ℝ) : Prop :=
  ∃ r r2 : V2 ℝ, (a = .taperedCylinder r r2 h ∨ a = .taperedCapsule r r2 h) ∧ r.x ≤ M ∧ r.y ≤ M ∧ r2.x ≤ M ∧ r2.y ≤ M

end Verif.FPhys
