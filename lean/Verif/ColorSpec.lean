import Verif.Color

/-!
# Specification of colours (C103, C104)
-/

namespace Verif.FColor

open Verif.Geo (V3 V4 tolerance)

section
variable {K : Type} [Field K] [LinearOrder K]

/-- The byte `n` is for the number `f` between 0 and 1: 255 f, rounded down. -/
def IsByte (f : K) (n : Nat) : Prop := n ≤ 255 ∧ (n : K) ≤ 255 * f ∧ 255 * f < n + 1

/-- The number, limited to 0 and 1. -/
def clamp01 (t : K) : K := max 0 (min 1 t)

/-- The pure colour of a hue: red at 0, green at 1/3, blue at 2/3, and linear changes in between. -/
def hueColor (h : K) : V3 K := ⟨clamp01 (|6 * h - 3| - 1), clamp01 (2 - |6 * h - 2|), clamp01 (2 - |6 * h - 4|)⟩

/-- The colour of hue, saturation and value: the pure colour mixed with white, and darkened. -/
def hsvColor (h s v : K) : V3 K :=
  ⟨v * ((1 - s) + s * (hueColor h).x), v * ((1 - s) + s * (hueColor h).y), v * ((1 - s) + s * (hueColor h).z)⟩

/-- The components lie between 0 and 1. -/
def InRange (c : V3 K) : Prop := (0 ≤ c.x ∧ c.x ≤ 1) ∧ (0 ≤ c.y ∧ c.y ≤ 1) ∧ 0 ≤ c.z ∧ c.z ≤ 1

/-- Red and green are the largest component, or smaller by the tolerance at least. -/
def Apart (c : V3 K) : Prop :=
  (c.x = max (max c.x c.y) c.z ∨ c.x + tolerance ≤ max (max c.x c.y) c.z) ∧ (c.y = max (max c.x c.y) c.z ∨ c.y + tolerance ≤ max (max c.x c.y) c.z)

/-- The largest component reaches the tolerance. -/
def Bright (c : V3 K) : Prop := tolerance ≤ max (max c.x c.y) c.z

/-- All components are equal. -/
def Grey (c : V3 K) : Prop := c.x = c.y ∧ c.y = c.z

end

end Verif.FColor
