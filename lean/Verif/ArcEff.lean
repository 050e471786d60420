import Verif.ArcStd
import Verif.ArcImg

/-!
# Model of the saving and loading of effects (FArchiveXML/FAXMaterialExport.cpp 1028-1050, FAXMaterialImport.cpp 1453-1505)

The samplers that the writing of textures adds to a common profile (`samplersAfter` of `Verif/ArcStd.lean`) are left out, as are effects that are transient. `none` is undefined behaviour.
-/

namespace Verif.FArc

open Verif.FEff (Text text)
open Verif.FConv (Ov DateTime)

/-- FUDaeEnum.h: the types of the profiles other than the common one. -/
inductive FxKind where
  | cg | hlsl | glsl | gles | unknown
deriving DecidableEq

/-- FUDaeEnum.cpp 320-334: the elements of the profiles. -/
def FxKind.name : FxKind → Text
  | .cg => text "profile_CG"
  | .hlsl => text "profile_HLSL"
  | .glsl => text "profile_GLSL"
  | .gles => text "profile_GLES"
  | .unknown => text "UNKNOWN"

/-- FUDaeEnum.cpp 310-318: `none` is the common profile. -/
def fxKindOf (t : Text) : Option FxKind :=
  if t = text "profile_COMMON" then none else some
    (if t = text "profile_CG" then .cg else if t = text "profile_HLSL" then .hlsl else if t = text "profile_GLSL" then .glsl else if t = text "profile_GLES" then .gles else .unknown)

/-- FCDEffect.cpp 76-91: a profile of an effect. -/
inductive EffProfile where
  | common (s : StdFx)
  | fx (k : FxKind) (p : FxProfile)

/-- FCDEffect.h: an effect. -/
structure Effect where
  ent : Ent := {}
  params : List Parm := []
  profiles : List EffProfile := []

/-! ## Saving -/

/-- FAXMaterialExport.cpp 855-986: a profile below the elements `around`: the element, and the profile afterwards. -/
def writeProfile (fmt : ℚ → Text) (urls : Urls) (around : List Node) : EffProfile → Option (Node × EffProfile)
  | .common s => (writeStd fmt around s).map fun n => (n, .common s)
  | .fx k p => (writeFx fmt urls around k.name p).map fun r => (r.1, .fx k r.2)

/-- FAXMaterialExport.cpp 1041-1046: the profiles, one after the other: `n` is the element of the effect so far. -/
def writeProfiles (fmt : ℚ → Text) (urls : Urls) (around : List Node) : Node → List EffProfile → Option (List Node × List EffProfile)
  | _, [] => some ([], [])
  | n, p :: ps => (writeProfile fmt urls (n :: around) p).bind fun r => (writeProfiles fmt urls around (Node.add r.1 n) ps).map fun q => (r.1 :: q.1, r.2 :: q.2)

/-- FAXMaterialExport.cpp 1028-1050: `WriteEffect` below the elements `around`: the element and the effect afterwards. -/
def writeEffect (ov : Ov) (fmt : ℚ → Text) (now : DateTime) (urls : Urls) (around : List Node) (e : Effect) : Option (Node × Effect) :=
  (writeEntAsset ov fmt now e.ent.asset).bind fun a => (e.params.mapM (writeParm fmt)).bind fun ks =>
    (writeProfiles fmt urls around (.elem (text "effect") (entAttrs true e.ent) [] (a.1 ++ ks)) e.profiles).bind fun r =>
      (writeEnt ov fmt now (text "effect") e.ent (ks ++ r.1)).map fun w => (w.1, { e with ent := w.2, profiles := r.2 })

/-! ## Loading -/

/-- The warnings of `LoadEffect`. -/
inductive EffWarning where
  | unknownElement | unsupportedProfile
deriving DecidableEq

/-- What `LoadEffect` changes: the effect and the images of the document that it adds; its warnings. -/
structure EffLoad where
  eff : Effect
  images : List Img := []
  warnings : List EffWarning := []

/-- FAXMaterialImport.cpp 1490-1500: a child that is not an image, a parameter or an extra. -/
def loadProfile (ov : Ov) (urls : Urls) (q : EffLoad) (k : Node) : Option EffLoad :=
  match fxKindOf k.name with
  | none => (loadStd ov {} k).map fun s => ⟨⟨q.eff.ent, q.eff.params, q.eff.profiles ++ [.common s]⟩, q.images, q.warnings⟩
  | some .unknown => some ⟨q.eff, q.images, q.warnings ++ [.unsupportedProfile]⟩
  | some x => (loadFx ov urls x.name k).map fun p => ⟨⟨q.eff.ent, q.eff.params, q.eff.profiles ++ [.fx x p]⟩, q.images, q.warnings⟩

/-- FAXMaterialImport.cpp 1472-1502: one child of the element. -/
def loadEffKid (ov : Ov) (now : DateTime) (stack : List FUri.Uri) (urls : Urls) (parent : Text) (q : EffLoad) (k : Node) : Option EffLoad :=
  if k.name = text "image" then (loadImg ov now stack {} k).map fun i => ⟨q.eff, q.images ++ [i], q.warnings⟩
  else if k.name = text "setparam" ∨ k.name = text "newparam" then (loadParm ov parent k).map fun p => ⟨⟨q.eff.ent, q.eff.params ++ [p], q.eff.profiles⟩, q.images, q.warnings⟩
  else if k.name = text "extra" then some q
  else loadProfile ov urls q k

/-- FAXMaterialImport.cpp 1453-1505: `LoadEffect` into an effect: its old parameters go, its old profiles stay; another element than `effect` is read all the same. -/
def loadEffect (ov : Ov) (now : DateTime) (stack : List FUri.Uri) (urls : Urls) (e : Effect) (n : Node) : Option EffLoad :=
  (loadEnt ov now e.ent n).bind fun s =>
    n.kids.foldlM (loadEffKid ov now stack urls n.name) ⟨⟨s, [], e.profiles⟩, [], if n.name = text "effect" then [] else [.unknownElement]⟩

end Verif.FArc
