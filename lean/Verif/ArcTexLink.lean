import Verif.ArcEff

/-!
# Model of the linking of samplers and textures after loading (FArchiveXML/FAXImportLinking.cpp 264-328, 342-508)

A loaded sampler or texture has the name of the parameter that it refers to; parameters are looked up in lists. `none` is undefined behaviour.
-/

namespace Verif.FArc

open Verif.FEff (Text text)

/-- The parameter is a sampler. -/
def isSamp (p : Parm) : Bool := match p.body with
  | .sampler _ => true
  | _ => false

/-- FAXImportLinking.cpp 482-494: the sampler for a texture: the first parameter with the reference that is a sampler. -/
def samplerFor (ps : List Parm) (sid : Text) : Option Parm := ps.find? fun p => decide (p.ref = sid) && isSamp p

/-- FAXImportLinking.cpp 500: the name without `#`. -/
def dropHash : Text → Text
  | [] => []
  | c :: t => if c = 35 then t else c :: t

/-- What a texture is linked to: a sampler of the profile, a sampler of the effect, an image of the document, nothing. -/
inductive TexLink where
  | inner (p : Parm)
  | outer (p : Parm)
  | image (id : Text)
  | nothing
deriving DecidableEq

/-- FAXImportLinking.cpp 472-508: `LinkTexture` with 411-440: `own` are the parameters of the profile, `outer` those of the effect, `doc` the ids of the images of the document. -/
def linkTex (doc : List Text) (own outer : List Parm) (t : STex) : Option TexLink :=
  if t.sid = [] then some .nothing
  else (FLib.cleanSubId t.sid).map fun r => match samplerFor own r with
    | some p => .inner p
    | none => match samplerFor outer r with
      | some p => .outer p
      | none => if dropHash t.sid ∈ doc then .image (dropHash t.sid) else .nothing

/-- FAXImportLinking.cpp 330-362: the first image of the surface of a sampler, whose surface is one of the parameters `ps`. -/
def sampImage (doc : List Text) (ps : List Parm) (p : Parm) : Option Text := match p.body with
  | .sampler s => match (linkSamp ps s).map Parm.body with
    | some (.surface f) => (linkSurf doc f).images.head?
    | _ => none
  | _ => none

/-- FCDTexture.cpp 66-72: `GetImage` after linking. The samplers of a profile have the surfaces of the profile or of the effect (FAXImportLinking.cpp 364-396), those of an effect have the surfaces of the effect
(297-328). -/
def texImage (doc : List Text) (own outer : List Parm) (t : STex) : Option (Option Text) := (linkTex doc own outer t).map fun
  | .inner p => sampImage doc (own ++ outer) p
  | .outer p => sampImage doc outer p
  | .image id => some id
  | .nothing => none

end Verif.FArc
