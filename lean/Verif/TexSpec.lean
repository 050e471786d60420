import Verif.Tex
import Verif.XmlTextProps

/-! # What textures and surfaces are for -/

namespace Verif.FTex

open Verif.FEff (Text text)

/-- Images with ids that textures can tell apart: no two of them have the same id, and an id is still a valid sub id with a suffix, so it has no dot. -/
structure GoodNames (imgs : List Nat) (name : Nat → Text) : Prop where
  inj : ∀ a ∈ imgs, ∀ b ∈ imgs, name a = name b → a = b
  valid : ∀ a ∈ imgs, FXml.ValidId false (name a ++ text "-surface")

/-- What a program does with the textures of an effect. -/
inductive Op where
  | addTexture
  | getSampler (t : Nat)
  | setImage (t : Nat) (img : Option Nat)
  | releaseImage (img : Nat)

/-- The step of an operation; `dead` are the images released so far. -/
def step (name : Nat → Text) (s : St × List Nat) : Op → Option (St × List Nat)
  | .addTexture => some (addTexture s.1, s.2)
  | .getSampler t => (getSampler s.1 t).map fun r => (r.1, s.2)
  | .setImage t img => (setImage s.1 name t img).map fun r => (r, s.2)
  | .releaseImage img => some (releaseImage s.1 img, img :: s.2)

/-- Operations on textures of the effect and images among `imgs` that are not released. -/
def Legal (imgs : List Nat) (s : St × List Nat) : Op → Prop
  | .addTexture => True
  | .getSampler t => (tex s.1 t).isSome
  | .setImage t img => (tex s.1 t).isSome ∧ ∀ i, img = some i → i ∈ imgs ∧ i ∉ s.2
  | .releaseImage img => img ∉ s.2

/-- The effects a program reaches from a new one. -/
inductive Reach (imgs : List Nat) (name : Nat → Text) : St × List Nat → Prop
  | new : Reach imgs name (⟨[], [], 1⟩, [])
  | step {s s' : St × List Nat} (op : Op) : Reach imgs name s → Legal imgs s op → step name s op = some s' → Reach imgs name s'

/-- Two textures share their sampler. -/
def Shares (st : St) (t u : Nat) : Prop := ∃ x y s, tex st t = some x ∧ tex st u = some y ∧ x.sampler = some s ∧ y.sampler = some s

/-- The image a face of the cube map shows. -/
def face (s : Surf) (k : Nat) : Option Nat := s.order.bind fun o => o[k]?.bind fun i => s.images[i]?

/-- Everything pointed to is there: the samplers of textures and the surfaces of samplers are parameters of the effect. -/
def Live (st : St) : Prop :=
  (∀ t ∈ st.texs, ∀ i, t.sampler = some i → ∃ p ∈ st.params, p.id = i) ∧ ∀ p ∈ st.params, ∀ f, p.kind = .sampler (some f) → ∃ q ∈ st.params, q.id = f

/-- What a program does with the textures of an effect, releases of parameters included. -/
inductive POp where
  | op (o : Op)
  | release (i : Nat)

/-- The step of an operation. -/
def pstep (name : Nat → Text) (s : St × List Nat) : POp → Option (St × List Nat)
  | .op o => step name s o
  | .release i => some (release s.1 i, s.2)

end Verif.FTex
