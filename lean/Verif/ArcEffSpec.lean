import Verif.ArcEff
import Verif.ArcStdSpec
import Verif.ArcStdWhole
import Verif.ArcEntitySpec

/-!
# What a user expects of the saving and loading of effects
-/

namespace Verif.FArc

open Verif.FEff (Text text)
open Verif.FConv (Ov)

/-- A profile that a file can hold. The extra trees may have sub-ids of their own. -/
def GoodProfile (ov : Ov) (urls : Urls) : EffProfile → Prop
  | .common s => GoodStd ov s ∧ StdSids s
  | .fx k p => k ≠ .unknown ∧ GoodFx urls p ∧ ExtraSids p.extra

/-- The profile `u` after saving is the profile `p` before, but for the names and sub-ids of an FX profile. -/
def ProfileSaved : EffProfile → EffProfile → Prop
  | .common s, .common t => t = s
  | .fx k p, .fx l q => l = k ∧ FxSaved p q
  | _, _ => False

/-- Every code has a sub-id. -/
def ProfileSids : EffProfile → Prop
  | .common _ => True
  | .fx _ p => AllSids p

/-- The profile `u` loaded is the profile `p` saved. -/
def ProfileBack (ov : Ov) (rnd : ℚ → ℚ) (urls : Urls) : EffProfile → EffProfile → Prop
  | .common s, .common t => StdBack ov rnd s t
  | .fx k p, .fx l q => l = k ∧ FxBack rnd urls p q
  | _, _ => False

end Verif.FArc
