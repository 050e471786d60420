import Verif.GeoRot

/-!
# Model of the bounding volumes (FUtils/FUBoundingBox.cpp, FUBoundingSphere.cpp)

Boxes are over an ordered field, spheres over the reals: rounding and overflow are left out. `FLT_MAX` is the parameter `big`. The overlap centre is the
value written through the pointer; division by zero is `none`.
-/

namespace Verif.Geo

section Box
variable {K : Type}

/-- FUBoundingBox.h 24-30: a box, by its two corners. -/
@[ext] structure Box (K : Type) where
  min : V3 K
  max : V3 K
deriving DecidableEq

variable [Field K] [LinearOrder K]

/-- FUBoundingBox.cpp 32-36, 52-56: the constructor and `Reset`. -/
def Box.reset (big : K) : Box K := ⟨⟨big, big, big⟩, ⟨-big, -big, -big⟩⟩

/-- FUBoundingBox.cpp 30: `Infinity`. -/
def Box.infinity (big : K) : Box K := ⟨⟨-big, -big, -big⟩, ⟨big, big, big⟩⟩

/-- FUBoundingBox.cpp 58-61: `IsValid`. -/
def Box.isValid (b : Box K) : Bool := !(decide (b.min.x > b.max.x) || decide (b.min.y > b.max.y) || decide (b.min.z > b.max.z))

/-- FUBoundingBox.cpp 63-68: `Contains`. -/
def Box.contains (b : Box K) (p : V3 K) : Bool :=
  decide (b.min.x ≤ p.x) && decide (p.x ≤ b.max.x) && decide (b.min.y ≤ p.y) && decide (p.y ≤ b.max.y) && decide (b.min.z ≤ p.z) &&
    decide (p.z ≤ b.max.z)

/-- FUBoundingBox.cpp 72-74: `Overlaps`, the result. -/
def Box.overlaps (a b : Box K) : Bool :=
  decide (a.min.x ≤ b.max.x) && decide (b.min.x ≤ a.max.x) && decide (a.min.y ≤ b.max.y) && decide (b.min.y ≤ a.max.y) &&
    decide (a.min.z ≤ b.max.z) && decide (b.min.z ≤ a.max.z)

/-- FUBoundingBox.cpp 75-84: `Overlaps`, the centre stored when the boxes overlap. -/
def Box.overlapCenter (a b : Box K) : V3 K :=
  let minX := Max.max a.min.x b.min.x
  let maxX := Min.min a.max.x b.max.x
  let minY := Max.max a.min.y b.min.y
  let maxY := Min.min a.max.y b.max.y
  let minZ := Max.max a.min.z b.min.z
  let maxZ := Min.min a.max.z b.max.z
  ⟨(maxX + minX) / 2, (maxY + minY) / 2, (maxZ + minZ) / 2⟩

/-- FUBoundingBox.cpp 94-104: `Include` of a box. -/
def Box.includeBox (a b : Box K) : Box K where
  min := ⟨if b.min.x < a.min.x then b.min.x else a.min.x, if b.min.y < a.min.y then b.min.y else a.min.y,
    if b.min.z < a.min.z then b.min.z else a.min.z⟩
  max := ⟨if b.max.x > a.max.x then b.max.x else a.max.x, if b.max.y > a.max.y then b.max.y else a.max.y,
    if b.max.z > a.max.z then b.max.z else a.max.z⟩

/-- FUBoundingBox.cpp 108-109, 110-111, 112-113: one coordinate of `Include` of a point, as the new minimum and maximum. -/
def include1 (lo hi x : K) : K × K := if x < lo then (x, hi) else if x > hi then (lo, x) else (lo, hi)

/-- FUBoundingBox.cpp 106-114: `Include` of a point. -/
def Box.includePoint (b : Box K) (p : V3 K) : Box K where
  min := ⟨(include1 b.min.x b.max.x p.x).1, (include1 b.min.y b.max.y p.y).1, (include1 b.min.z b.max.z p.z).1⟩
  max := ⟨(include1 b.min.x b.max.x p.x).2, (include1 b.min.y b.max.y p.y).2, (include1 b.min.z b.max.z p.z).2⟩

/-- FUBoundingBox.cpp 140-148: `Equals`. -/
def Box.equals (a b : Box K) : Bool :=
  decide (a.min.x = b.min.x) && decide (a.max.x = b.max.x) && decide (a.min.y = b.min.y) && decide (a.max.y = b.max.y) &&
    decide (a.min.z = b.min.z) && decide (a.max.z = b.max.z)

/-- FUBoundingBox.cpp 122-127, 134-135: the corners, in the order in which `Transform` includes them. -/
def Box.testPoints (b : Box K) : List (V3 K) :=
  [⟨b.min.x, b.max.y, b.min.z⟩, ⟨b.min.x, b.max.y, b.max.z⟩, ⟨b.max.x, b.max.y, b.min.z⟩, ⟨b.min.x, b.min.y, b.max.z⟩,
    ⟨b.max.x, b.min.y, b.min.z⟩, ⟨b.max.x, b.min.y, b.max.z⟩, b.min, b.max]

/-- FUBoundingBox.cpp 116-138: `Transform`. -/
def Box.transform (big : K) (b : Box K) (m : M44 K) : Box K :=
  if !b.isValid || b.equals (Box.infinity big) then b
  else (b.testPoints.map m.transformCoordinate).foldl Box.includePoint (Box.reset big)

/-- FUBoundingBox.h 76: `GetCenter`. -/
def Box.center (b : Box K) : V3 K := ⟨(b.min.x + b.max.x) / 2, (b.min.y + b.max.y) / 2, (b.min.z + b.max.z) / 2⟩

/-- FUBoundingSphere.cpp 13-23: `FUBOUNDINGBOX_COORDINATES`. -/
def Box.coordinates (b : Box K) : List (V3 K) :=
  [b.min, ⟨b.min.x, b.min.y, b.max.z⟩, ⟨b.min.x, b.max.y, b.min.z⟩, ⟨b.max.x, b.min.y, b.min.z⟩, ⟨b.min.x, b.max.y, b.max.z⟩,
    ⟨b.max.x, b.min.y, b.max.z⟩, ⟨b.max.x, b.max.y, b.min.z⟩, b.max]

/-- FUBoundingSphere.cpp 95-97, 98-100, 101-103: one coordinate of the way from the centre of a sphere to the nearest point of a box. -/
def nearest1 (lo hi c : K) : K := if c > hi then hi - c else if c > lo then 0 else lo - c

end Box

section Sphere

/-- FUBoundingSphere.h 24-30: a sphere. -/
@[ext] structure Sphere where
  center : V3 ℝ
  radius : ℝ

/-- FUBoundingSphere.cpp 29-32, 48-52: the constructor and `Reset`. -/
def Sphere.reset : Sphere := ⟨⟨0, 0, 0⟩, -1⟩

/-- FUBoundingSphere.cpp 54-57: `IsValid`. -/
def Sphere.isValid (s : Sphere) : Prop := s.radius ≥ 0

/-- FUBoundingSphere.cpp 59-68: `Contains`. -/
def Sphere.contains (s : Sphere) (p : V3 ℝ) : Prop :=
  s.radius ≥ 0 ∧ ((s.center.sub p).lengthSquared < s.radius * s.radius ∨
    equivalent (s.center.sub p).lengthSquared (s.radius * s.radius) = true)

/-- FUBoundingSphere.cpp 70-88: `Overlaps` with a sphere, the result. -/
def Sphere.overlaps (s o : Sphere) : Prop :=
  s.radius ≥ 0 ∧ (s.center.sub o.center).lengthSquared < (s.radius + o.radius) * (s.radius + o.radius)

open Classical in
/-- FUBoundingSphere.cpp 77-84: `Overlaps` with a sphere, the centre stored when the spheres overlap. -/
noncomputable def Sphere.overlapCenter (s o : Sphere) : Option (V3 ℝ) :=
  let toCenter := s.center.sub o.center
  let distance := √toCenter.lengthSquared
  let overlapDistance := min (2 * min s.radius o.radius) (s.radius + o.radius - distance)
  if distance = 0 then none
  else some (s.center.add (V3.smul (s.radius - overlapDistance / 2) ⟨toCenter.x / distance, toCenter.y / distance, toCenter.z / distance⟩))

/-- FUBoundingSphere.cpp 94-103: the way from the centre to the nearest point of the box. -/
noncomputable def Sphere.toBox (s : Sphere) (b : Box ℝ) : V3 ℝ :=
  ⟨nearest1 b.min.x b.max.x s.center.x, nearest1 b.min.y b.max.y s.center.y, nearest1 b.min.z b.max.z s.center.z⟩

/-- FUBoundingSphere.cpp 90-112: `Overlaps` with a box, the result. -/
def Sphere.overlapsBox (s : Sphere) (b : Box ℝ) : Prop := s.radius ≥ 0 ∧ (s.toBox b).lengthSquared < s.radius * s.radius

/-- FUBoundingSphere.cpp 105-108: `Overlaps` with a box, the centre stored when they overlap. -/
noncomputable def Sphere.overlapCenterBox (s : Sphere) (b : Box ℝ) : V3 ℝ := s.center.add (s.toBox b)

open Classical in
/-- FUBoundingSphere.cpp 114-129: `Include` of a point. -/
noncomputable def Sphere.includePoint (s : Sphere) (p : V3 ℝ) : Sphere :=
  if s.radius ≥ 0 then
    if (s.center.sub p).lengthSquared > s.radius * s.radius then ⟨s.center, √(s.center.sub p).lengthSquared⟩ else s
  else ⟨p, 0⟩

open Classical in
/-- FUBoundingSphere.cpp 131-147: `Include` of a sphere. The division is by a positive number: the sum is above twice the radius. -/
noncomputable def Sphere.includeSphere (s o : Sphere) : Sphere :=
  if s.radius ≥ 0 then
    let distance := (s.center.sub o.center).length
    if distance + o.radius > s.radius then
      ⟨V3.smul (1 / (s.radius + o.radius + distance))
        ((V3.smul (s.radius + distance / 2) s.center).add (V3.smul (o.radius + distance / 2) o.center)),
        (s.radius + o.radius + distance) / 2⟩
    else s
  else o

open Classical in
/-- FUBoundingSphere.cpp 149-164: `Include` of a box. -/
noncomputable def Sphere.includeBox (s : Sphere) (b : Box ℝ) : Sphere :=
  if s.radius ≥ 0 then b.coordinates.foldl Sphere.includePoint s
  else ⟨b.center, (b.max.sub b.center).length⟩

open Classical in
/-- FUBoundingSphere.cpp 181-189: the loop of `Transform`. -/
noncomputable def transformRadius (m : M44 ℝ) (radius : ℝ) : List (V3 ℝ) → ℝ
  | [] => radius
  | p :: ps =>
    let lengthSquared := (m.transformVector p).lengthSquared
    transformRadius m (if lengthSquared > radius * radius then √lengthSquared else radius) ps

open Classical in
/-- FUBoundingSphere.cpp 166-192: `Transform`. -/
noncomputable def Sphere.transform (s : Sphere) (m : M44 ℝ) : Sphere :=
  if s.radius ≥ 0 then
    ⟨m.transformCoordinate s.center, transformRadius m 0 [⟨s.radius, 0, 0⟩, ⟨0, s.radius, 0⟩, ⟨0, 0, s.radius⟩]⟩
  else s

end Sphere

end Verif.Geo
