import Verif.ArcImg
import Verif.ArcParamSpec
import Verif.ArcCamSpec
import Verif.PathSpec

/-!
# What a user expects of the saving and loading of images and materials
-/

namespace Verif.FArc

open Verif.FEff (Text text)

/-- The path of a file that can be written relative to a document in the folder `/D.../`: names without separators and delimiters of URIs, not too long. -/
structure GoodFile (D F : List Text) (name : Text) : Prop where
  names : ∀ c ∈ F ++ [name], FUri.Name c
  chars : ∀ c ∈ F ++ [name], ∀ x ∈ c, FXml.IsChar x
  size : (FUri.abs (D ++ [[100]])).length + (FUri.abs (F ++ [name])).length < 2 ^ 61

/-- The folder of the document: not the root. -/
structure GoodFolder (D : List Text) : Prop where
  ne : D ≠ []
  names : ∀ c ∈ D, FUri.Name c

/-- The hints of a material that can be saved. -/
def GoodHints (hs : List (Text × Text)) : Prop := ∀ h ∈ hs, Plain h.1 ∧ Plain h.2

/-- An image that can be saved in a document in the folder `/D.../`, apart from its common part. -/
structure GoodImg (D : List Text) (i : Img) : Prop where
  file : i.file = [] ∨ ∃ F name, i.file = FUri.abs (F ++ [name]) ∧ GoodFile D F name
  width : i.width < 2 ^ 32
  height : i.height < 2 ^ 32
  depth : i.depth < 2 ^ 32

/-- A material that can be saved, apart from its common part; `effects` are the ids of the effects of the document. -/
structure GoodMtl (effects : List Text) (m : Mtl) : Prop where
  effect : FXml.ValidId true m.effect
  found : m.effect ∈ effects
  hints : GoodHints m.hints
  params : ∀ p ∈ m.params, GoodParm p

end Verif.FArc
