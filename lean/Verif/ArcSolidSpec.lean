import Verif.ArcSolid
import Verif.ArcTransSpec

/-! # What analytical shapes should be after saving and loading -/

namespace Verif.FArc

open Verif.FConv (shown)

/-- Two numbers as they are shown. -/
def shownRadii (rnd : ℚ → ℚ) (v : ℚ × ℚ) : ℚ × ℚ := (shown rnd v.1, shown rnd v.2)

/-- The shape with each number as it is shown. -/
def shownSolid (rnd : ℚ → ℚ) : Solid → Solid
  | .box h => .box (shownVec rnd h)
  | .plane n d => .plane (shownVec rnd n) (shown rnd d)
  | .sphere r => .sphere (shown rnd r)
  | .cylinder h r => .cylinder (shown rnd h) (shownRadii rnd r)
  | .capsule h r => .capsule (shown rnd h) (shownRadii rnd r)
  | .taperedCylinder h r r2 => .taperedCylinder (shown rnd h) (shownRadii rnd r) (shownRadii rnd r2)
  | .taperedCapsule h r r2 => .taperedCapsule (shown rnd h) (shownRadii rnd r) (shownRadii rnd r2)

/-- The shape is a plane. -/
def Solid.isPlane : Solid → Prop
  | .plane _ _ => True
  | _ => False

end Verif.FArc
