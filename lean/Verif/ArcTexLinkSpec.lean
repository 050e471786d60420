import Verif.ArcTexLink
import Verif.ArcParamSpec

/-!
# What a user expects of the linking of textures
-/

namespace Verif.FArc

open Verif.FEff (Text text)

/-- The texture shows the image: its sampler `p` has the surface `q`, whose first image it is. The surface is among the parameters that the sampler can refer to, which are those of the effect for a sampler of the effect.
The images of the surface are all written and in the document. -/
structure Shows (own outer : List Parm) (t : STex) (img : Text) (doc : List Text) : Prop where
  chain : ∃ p q s f, (p ∈ own ∧ q ∈ own ++ outer ∨ p ∈ outer ∧ q ∈ outer) ∧ p.ref = t.sid ∧ p.body = .sampler s ∧ s.surface = q.ref ∧ q.body = .surface f ∧ f.images.head? = some img ∧ AllWritten f ∧ f.images.Nodup ∧
    ∀ id ∈ f.images, id ∈ doc

end Verif.FArc
