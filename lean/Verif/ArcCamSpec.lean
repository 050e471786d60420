import Verif.ArcCam
import Verif.ArcEntitySpec

/-! # What a camera should be after saving and loading -/

namespace Verif.FArc

open Verif.FEff (Text text)
open Verif.FConv (Ov DateTime shown)

/-- The views as they are read back: those that are in use and, if only one is, the aspect ratio; if both are, the aspect ratio is their quotient, or that of a new camera if the horizontal view is
(nearly) zero. A camera with neither view gets the vertical one. -/
def viewAfter (rnd : ℚ → ℚ) (v : FEnt.View ℚ) : FEnt.View ℚ :=
  match v.hasX, v.hasY with
  | true, true => ⟨shown rnd v.x, shown rnd v.y, if |shown rnd v.x| < tolerance then 1 else shown rnd v.x / shown rnd v.y, true, true⟩
  | true, false => ⟨shown rnd v.x, 60, shown rnd v.aspect, true, false⟩
  | false, _ => ⟨60, shown rnd v.y, shown rnd v.aspect, false, true⟩

/-- The entity as it is read back; see C145. -/
def entAfter (ov : Ov) (rnd : ℚ → ℚ) (now : DateTime) (s : Ent) (e : FExtra.Extra) : Ent :=
  { id := s.id, name := nameAfter s.id s.name, note := s.note, asset := s.asset.map (assetAfter ov rnd now), extra := e }

/-- The address of a target. -/
def addressOf (target : Text) : Text := if target = [] then [] else 35 :: target

end Verif.FArc
