import Verif.Bound

/-!
# Specification of bounding volumes
-/

namespace Verif.Geo

section Box
variable {K : Type} [Field K] [LinearOrder K]

/-- The point lies in the box. -/
def Box.Has (b : Box K) (p : V3 K) : Prop :=
  (b.min.x ≤ p.x ∧ p.x ≤ b.max.x) ∧ (b.min.y ≤ p.y ∧ p.y ≤ b.max.y) ∧ (b.min.z ≤ p.z ∧ p.z ≤ b.max.z)

/-- The box is the smallest one that has all the points in `S`: it has them, and it lies within every other box that has them. -/
def Box.Smallest (b : Box K) (S : V3 K → Prop) : Prop :=
  (∀ p, S p → b.Has p) ∧ ∀ c : Box K, (∀ p, S p → c.Has p) → ∀ p, b.Has p → c.Has p

/-- Something included in a box: a point or another box. -/
inductive Item (K : Type) where
  | point (p : V3 K)
  | box (b : Box K)

/-- The box after including the item. -/
def Box.includeItem (b : Box K) : Item K → Box K
  | .point p => b.includePoint p
  | .box c => b.includeBox c

/-- The point belongs to the item. -/
def Item.Has : Item K → V3 K → Prop
  | .point q, p => p = q
  | .box b, p => b.Has p

/-- All coordinates of the point are strictly between `-big` and `big`. -/
def Within (big : K) (p : V3 K) : Prop := (-big < p.x ∧ p.x < big) ∧ (-big < p.y ∧ p.y < big) ∧ (-big < p.z ∧ p.z < big)

end Box

/-- The distance between two points. -/
noncomputable def distance (p q : V3 ℝ) : ℝ := √((p.x - q.x) ^ 2 + (p.y - q.y) ^ 2 + (p.z - q.z) ^ 2)

/-- The point lies in the sphere, or on its surface. -/
def Sphere.Has (s : Sphere) (p : V3 ℝ) : Prop := distance s.center p ≤ s.radius

/-- The sphere has all the points in `S`, and every other sphere around the same centre that has them is as large. -/
def Sphere.Tight (s : Sphere) (S : V3 ℝ → Prop) : Prop :=
  (∀ p, S p → s.Has p) ∧ ∀ r, (∀ p, S p → Sphere.Has ⟨s.center, r⟩ p) → s.radius ≤ r

/-- The sphere has all the points in `S`, and every other sphere that has them is as large. -/
def Sphere.Least (s : Sphere) (S : V3 ℝ → Prop) : Prop :=
  (∀ p, S p → s.Has p) ∧ ∀ o : Sphere, (∀ p, S p → o.Has p) → s.radius ≤ o.radius

end Verif.Geo
