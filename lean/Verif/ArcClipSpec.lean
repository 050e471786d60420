import Verif.ArcClip
import Verif.ArcCamSpec

/-! # What a clip should be after saving and loading -/

namespace Verif.FArc

open Verif.FEff (Text text)
open Verif.FConv (Ov DateTime shown)

/-- The animations of the curves of a clip, each once, in the order in which they occur. -/
def clipAnims (c : Clip) : List Nat := (c.curves.filterMap id).eraseDups

/-- The clip as it is read back: an instance of each animation, without names, and no curves. -/
def clipAfter (rnd : ℚ → ℚ) (ids : Nat → Text) (c : Clip) (s : Ent) : Clip :=
  { ent := s, start := shown rnd c.start, stop := shown rnd c.stop, curves := [], anims := (clipAnims c).map fun a => { id := ids a }, names := (clipAnims c).map fun _ => [] }

end Verif.FArc
