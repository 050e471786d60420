import Verif.ArcTrans
import Verif.ArcSidSpec

/-! # What transforms should be after saving and loading -/

namespace Verif.FArc

open Verif.FEff (Text text)
open Verif.FConv (shown)

/-- The vector with each number as it is shown. -/
def shownVec (rnd : ℚ → ℚ) (v : V3) : V3 := (shown rnd v.1, shown rnd v.2.1, shown rnd v.2.2)

/-- The transform with each number as it is shown; the axes of a skew are made to have length 1. -/
def shownTrans (rnd : ℚ → ℚ) (len : V3 → ℚ) : Trans → Trans
  | .lookAt p t u => .lookAt (shownVec rnd p) (shownVec rnd t) (shownVec rnd u)
  | .matrix m => .matrix (shownMat rnd m)
  | .rotation x a => .rotation (shownVec rnd x) (shown rnd a)
  | .scale s => .scale (shownVec rnd s)
  | .skew a r x => .skew (shown rnd a) (unit len (shownVec rnd r)) (unit len (shownVec rnd x))
  | .translation t => .translation (shownVec rnd t)

/-- Each number is closer to zero than one part in ten thousand. -/
def NearOrigin (v : V3) : Prop := |v.1| < 1 / 10000 ∧ |v.2.1| < 1 / 10000 ∧ |v.2.2| < 1 / 10000

/-- The axes of a skew, as they are shown, are not at the origin. -/
def GoodTrans (rnd : ℚ → ℚ) : Trans → Prop
  | .skew _ r x => ¬ NearOrigin (shownVec rnd r) ∧ ¬ NearOrigin (shownVec rnd x)
  | _ => True

/-- A sub-id that is not changed by cleaning, even with two digits behind it. -/
def GoodSid (sid : Text) : Prop := FXml.ValidId false sid ∧ sid.length ≤ 510

/-- The names of the elements of transforms. -/
def transNames : List Text := [text "rotate", text "translate", text "scale", text "skew", text "matrix", text "lookat"]

end Verif.FArc
