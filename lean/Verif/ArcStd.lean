import Verif.ArcFx

/-!
# Saving and loading of the common profile

Models `WriteEffectStandard`, `WriteTexture`, `WriteColorTextureParameter`, `WriteFloatTextureParameter`, `WriteTextureParameter` (`/repo/FColladaPlugins/FArchiveXML/FAXMaterialExport.cpp` 898-986, 1052-1062, 1085-1138),
`LoadEffectStandard`, `LoadTexture`, `ParseColorTextureParameter`, `ParseFloatTextureParameter` and `ParseSimpleTextureParameter` (`FAXMaterialImport.cpp` 1216-1400, 1542-1728).

A texture is modelled with the reference of its sampler, empty if it has none (but see `samplersAfter`), which is what is linked later. Animations, the annotations of the parameters of a profile, flags for objects that are not
written (`LetWriteObject`) and images declared within profiles are left out. The elements `faceted`, `double_sided`, `wireframe` and `face_map` of other exporters, which become nodes of the extra, are kept as a list (`marks`).
-/

namespace Verif.FArc

open Verif.FEff (Text text Role)
open Verif.FConv (Ov)

/-- FUDaeEnum.h 114-132: the channels of textures. -/
inductive Chan where
  | ambient | bump | diffuse | displacement | emission | filter | reflection | refraction | shininess | specular | specLevel | transparent
deriving DecidableEq

/-- FCDEffectStandard.h 60-92: the lighting. -/
inductive Lighting where
  | constant | lambert | phong | blinn | unknown
deriving DecidableEq

/-- A colour. -/
abbrev V4 := ℚ × ℚ × ℚ × ℚ

/-- FCDTexture.h: a texture: the reference of its sampler, the semantic and the value of its set, its extra. A new one: FCDTexture.cpp 38-47. -/
structure STex where
  sid : Text := []
  sem : Text := []
  set : Int := -1
  extra : FExtra.Extra := FExtra.newExtra

/-- A parameter of the profile; new ones are constant (FCDEffectStandard.cpp 104-139). -/
structure SParm (α : Type) where
  role : Role := .constant
  ref : Text := []
  value : α
deriving DecidableEq

/-- FCDEffectStandard.h, FCDEffectStandard.cpp 72-147: the common profile with the values of a new one in a document of version 1.4.1 or later. -/
structure StdFx where
  params : List Parm := []
  extra : FExtra.Extra := FExtra.newExtra
  lighting : Lighting := .constant
  rgbZero : Bool := false
  isEmission : Bool := false
  reflective : Bool := false
  refractive : Bool := false
  emission : SParm V4 := { value := (0, 0, 0, 1) }
  emissionF : SParm ℚ := { value := 1 }
  reflect : SParm V4 := { value := (1, 1, 1, 1) }
  reflectF : SParm ℚ := { value := 1 }
  refraction : SParm ℚ := { value := 1 }
  transl : SParm V4 := { value := (0, 0, 0, 1) }
  translF : SParm ℚ := { value := 1 }
  diffuse : SParm V4 := { value := (0, 0, 0, 1) }
  ambient : SParm V4 := { value := (0, 0, 0, 1) }
  specular : SParm V4 := { value := (0, 0, 0, 1) }
  specF : SParm ℚ := { value := 1 }
  shininess : SParm ℚ := { value := 20 }
  tex : Chan → List STex := fun _ => []
  marks : List (Text × Text) := []

/-! ## Saving -/

/-- FAXMaterialExport.cpp 1052-1062: `WriteTexture`. -/
def texNode (t : STex) : Node := .elem (text "texture") [(text "texture", t.sid), (text "texcoord", t.sem)] [] (writeExtra t.extra)

/-- FAXMaterialExport.cpp 1099-1103, 1119-1123 with 289-300, 345-358: a parameter that refers to another. -/
def refParam (ref : Text) : Node := .elem (text "param") [(text "ref", ref)] [] []

/-- FAXMaterialExport.cpp 1090-1103: the value of a colour. -/
def colorValue (fmt : ℚ → Text) (p : SParm V4) : List Node := match p.role with
  | .constant => [textChild (text "color") (numsText fmt [p.value.1, p.value.2.1, p.value.2.2.1, p.value.2.2.2])]
  | .referencer => [refParam p.ref]
  | _ => []

/-- FAXMaterialExport.cpp 1114-1124: the value of a number. -/
def scalarValue (fmt : ℚ → Text) (p : SParm ℚ) : List Node := match p.role with
  | .constant => [valueChild (text "float") (numText fmt p.value)]
  | .referencer => [refParam p.ref]
  | _ => []

/-- FAXMaterialExport.cpp 1085-1106: `WriteColorTextureParameter`, with the textures of the channel: they stand in for the value. -/
def colorNode (fmt : ℚ → Text) (name : Text) (p : SParm V4) (ts : List STex) : Node := .elem name [] [] (if ts = [] then colorValue fmt p else ts.map texNode)

/-- FAXMaterialExport.cpp 1109-1127: `WriteFloatTextureParameter`. -/
def scalarNode (fmt : ℚ → Text) (name : Text) (p : SParm ℚ) (ts : List STex) : Node := .elem name [] [] (if ts = [] then scalarValue fmt p else ts.map texNode)

/-- FAXMaterialExport.cpp 955, 963, 967, 971: the same with textures and without a value. -/
def texturesNode (name : Text) (ts : List STex) : Node := .elem name [] [] (ts.map texNode)

/-- FAXMaterialExport.cpp 907-916: the element of a lighting. -/
def Lighting.name : Lighting → Text
  | .constant => text "constant"
  | .lambert => text "lambert"
  | .phong => text "phong"
  | .blinn => text "blinn"
  | .unknown => text "unknown"

/-- FAXMaterialExport.cpp 925, 929: ambient and diffuse colours. -/
def hasDiffuse (s : StdFx) : Prop := s.lighting ≠ .constant

/-- The same with 930: specular colours. -/
def hasSpecular (s : StdFx) : Prop := s.lighting ≠ .constant ∧ s.lighting ≠ .lambert

instance (s : StdFx) : Decidable (hasDiffuse s) := by unfold hasDiffuse; infer_instance
instance (s : StdFx) : Decidable (hasSpecular s) := by unfold hasSpecular; infer_instance

/-- An element that is written on a condition. -/
def onlyIf (c : Prop) [Decidable c] (n : Node) : List Node := if c then [n] else []

/-- FAXMaterialExport.cpp 921-951: the children of the element of the lighting. -/
def commonKids (fmt : ℚ → Text) (s : StdFx) : List Node :=
  onlyIf (s.isEmission = false) (colorNode fmt (text "emission") s.emission (s.tex .emission)) ++
  onlyIf (hasDiffuse s) (colorNode fmt (text "ambient") s.ambient (s.tex .ambient)) ++
  onlyIf (hasDiffuse s) (colorNode fmt (text "diffuse") s.diffuse (s.tex .diffuse)) ++
  onlyIf (hasSpecular s) (colorNode fmt (text "specular") s.specular (s.tex .specular)) ++
  onlyIf (hasSpecular s) (scalarNode fmt (text "shininess") s.shininess []) ++
  onlyIf (s.reflective = true) (colorNode fmt (text "reflective") s.reflect (s.tex .reflection)) ++
  onlyIf (s.reflective = true) (scalarNode fmt (text "reflectivity") s.reflectF []) ++
  [(colorNode fmt (text "transparent") s.transl (s.tex .transparent)).put (text "opaque") (if s.rgbZero then text "RGB_ZERO" else text "A_ONE")] ++
  [scalarNode fmt (text "transparency") s.translF []] ++
  onlyIf (s.refractive = true) (scalarNode fmt (text "index_of_refraction") s.refraction [])

/-- FAXMaterialExport.cpp 933-940, 953-981: the children of the technique of the extra. -/
def extraKids (fmt : ℚ → Text) (s : StdFx) : List Node :=
  onlyIf (hasSpecular s ∧ s.tex .shininess ≠ []) (texturesNode (text "shininess") (s.tex .shininess)) ++
  onlyIf (hasSpecular s ∧ s.specF.value ≠ 1) (scalarNode fmt (text "spec_level") s.specF (s.tex .specLevel)) ++
  onlyIf (s.tex .bump ≠ []) (texturesNode (text "bump") (s.tex .bump)) ++
  onlyIf (s.isEmission = true) (scalarNode fmt (text "emission_level") s.emissionF []) ++
  onlyIf (s.tex .displacement ≠ []) (texturesNode (text "displacement") (s.tex .displacement)) ++
  onlyIf (s.tex .filter ≠ []) (texturesNode (text "filter_color") (s.tex .filter)) ++
  onlyIf (s.tex .refraction ≠ []) (texturesNode (text "index_of_refraction") (s.tex .refraction))

/-- FAXMaterialExport.cpp 904-919: the children of the technique. -/
def stdKids (fmt : ℚ → Text) (s : StdFx) : List Node :=
  [.elem s.lighting.name [] [] (commonKids fmt s), .elem (text "extra") [] [] [.elem (text "technique") [(text "profile", text "FCOLLADA")] [] (extraKids fmt s)]]

/-- FAXMaterialExport.cpp 898-986: `WriteEffectStandard` below the elements `around`. -/
def writeStd (fmt : ℚ → Text) (around : List Node) (s : StdFx) : Option Node :=
  (s.params.mapM (writeParm fmt)).bind fun ks =>
    (putSid (.elem (text "profile_COMMON") [] [] ks :: around) (leaf (text "technique")) (text "common")).map fun r =>
      .elem (text "profile_COMMON") [] [] (ks ++ [addKids r.1 (stdKids fmt s)] ++ writeExtra s.extra)

/-- FAXMaterialExport.cpp 1058 with FCDTexture.cpp 55-63: `GetSampler` makes the sampler of a texture that has none: a parameter of the profile without reference, made after the parameters have been written. `n` is the
number of textures written that have no sampler. -/
def samplersAfter (n : Nat) (s : StdFx) : StdFx := { s with params := s.params ++ List.replicate n ⟨.generator, [], [], [], .sampler {}⟩ }

/-! ## Loading -/

/-- `FUStringConversion::ToVector4` of a text. -/
def readV4 (ov : Ov) (t : Text) : Option V4 := (FConv.toVector4 ov (t ++ [0])).bind fun r => match r.1 with
  | [a, b, c, d] => some (a, b, c, d)
  | _ => none

/-- FAXMaterialImport.cpp 1542-1581: `LoadTexture` of a new texture. -/
def loadTex (ov : Ov) (n : Node) : Option STex :=
  (prop (some n) (text "texture")).bind fun s => (if s = [] then some [] else FLib.cleanSubId s).bind fun sid => (prop (some n) (text "texcoord")).bind fun sem =>
    (if sem = [] then some (-1) else readInt ov sem).bind fun set => (loadExtras FExtra.newExtra (n.children (text "extra"))).map fun e => ⟨sid, sem, set, e⟩

/-- FAXMaterialImport.cpp 1709-1728: `ParseSimpleTextureParameter`: the new textures. -/
def loadTexs (ov : Ov) (n : Node) : Option (List STex) := (n.children (text "texture")).mapM (loadTex ov)

/-- FAXMaterialImport.cpp 1606-1631, 1671-1696: the reference in a `param`: the attribute, or else the content of the first child. -/
def refName (n : Node) : Option Text := (prop (some n) (text "ref")).bind fun r =>
  if r ≠ [] then some r else if n.direct ≠ [] then decode n.direct else match n.kids with
    | k :: _ => content k
    | [] => some []

/-- FAXMaterialImport.cpp 1584-1645: `ParseColorTextureParameter` with the textures found (none if there is no channel). -/
def parseColor (ov : Ov) (n : Node) (ts : List STex) (p : SParm V4) : Option (SParm V4) :=
  if ts ≠ [] then some { p with value := (1, 1, 1, 1) } else match n.child (text "param") with
    | some q => (refName q).bind fun r => (FLib.cleanSubId r).map fun r => { p with role := .referencer, ref := r }
    | none => (readV4 ov (direct (n.child (text "color")))).map fun v => { p with value := v }

/-- FAXMaterialImport.cpp 1647-1707: `ParseFloatTextureParameter`. -/
def parseScalar (ov : Ov) (n : Node) (ts : List STex) (p : SParm ℚ) : Option (SParm ℚ) :=
  if ts ≠ [] then some { p with value := 1 } else match n.child (text "param") with
    | some q => (refName q).bind fun r => (FLib.cleanSubId r).map fun r => { p with role := .referencer, ref := r }
    | none => (readNum ov (direct (n.child (text "float")))).map fun v => { p with value := v }

/-- Textures are added to a channel. -/
def addTexs (tex : Chan → List STex) (c : Chan) (ts : List STex) : Chan → List STex := fun d => if d = c then tex d ++ ts else tex d

/-- A parameter and a channel: `get` and `set` choose the parameter. -/
def colorStep (ov : Ov) (k : Node) (s : StdFx) (get : StdFx → SParm V4) (set : StdFx → SParm V4 → StdFx) (c : Chan) : Option StdFx :=
  (loadTexs ov k).bind fun ts => (parseColor ov k ts (get s)).map fun p => set { s with tex := addTexs s.tex c ts } p

/-- The same for a number; without a channel textures are not looked for. -/
def scalarStep (ov : Ov) (k : Node) (s : StdFx) (get : StdFx → SParm ℚ) (set : StdFx → SParm ℚ → StdFx) : Option Chan → Option StdFx
  | some c => (loadTexs ov k).bind fun ts => (parseScalar ov k ts (get s)).map fun p => set { s with tex := addTexs s.tex c ts } p
  | none => (parseScalar ov k [] (get s)).map fun p => set s p

/-- Textures only. -/
def texStep (ov : Ov) (k : Node) (s : StdFx) (c : Chan) : Option StdFx := (loadTexs ov k).map fun ts => { s with tex := addTexs s.tex c ts }

/-- FUString.h 546: equality up to case. -/
def eqI (a b : Text) : Bool := decide (a.map (fun c => if 65 ≤ c ∧ c ≤ 90 then c + 32 else c) = b.map (fun c => if 65 ≤ c ∧ c ≤ 90 then c + 32 else c))

/-- FAXMaterialImport.cpp 1305-1310: the mode. -/
def loadOpaque (s : StdFx) (t : Text) : StdFx :=
  if eqI t (text "RGB_ZERO") then { s with rgbZero := true } else if eqI t (text "A_ONE") then { s with rgbZero := false } else s

/-- What has been seen: translucency, reflectivity; the third, refraction. -/
structure StdSeen where
  transl : Bool := false
  refl : Bool := false
  refr : Bool := false

/-- FAXMaterialImport.cpp 1282-1374: one parameter. -/
def stdStep (ov : Ov) (q : StdFx × StdSeen) (k : Node) : Option (StdFx × StdSeen) :=
  if k.name = text "emission" then (colorStep ov k q.1 (·.emission) (fun s p => { s with emission := p }) .emission).map fun s => (s, q.2)
  else if k.name = text "diffuse" then (colorStep ov k q.1 (·.diffuse) (fun s p => { s with diffuse := p }) .diffuse).map fun s => (s, q.2)
  else if k.name = text "ambient" then (colorStep ov k q.1 (·.ambient) (fun s p => { s with ambient := p }) .ambient).map fun s => (s, q.2)
  else if k.name = text "transparent" then (prop (some k) (text "opaque")).bind fun o =>
    (colorStep ov k (loadOpaque q.1 o) (·.transl) (fun s p => { s with transl := p }) .transparent).map fun s => (s, { q.2 with transl := true })
  else if k.name = text "transparency" then (scalarStep ov k q.1 (·.translF) (fun s p => { s with translF := p }) none).map fun s => (s, { q.2 with transl := true })
  else if k.name = text "specular" then (colorStep ov k q.1 (·.specular) (fun s p => { s with specular := p }) .specular).map fun s => (s, q.2)
  else if k.name = text "shininess" then (scalarStep ov k q.1 (·.shininess) (fun s p => { s with shininess := p }) (some .shininess)).map fun s => (s, q.2)
  else if k.name = text "reflective" then (colorStep ov k q.1 (·.reflect) (fun s p => { s with reflect := p }) .reflection).map fun s => (s, { q.2 with refl := true })
  else if k.name = text "reflectivity" then (scalarStep ov k q.1 (·.reflectF) (fun s p => { s with reflectF := p }) none).map fun s => (s, { q.2 with refl := true })
  else if k.name = text "index_of_refraction" then
    (scalarStep ov k q.1 (·.refraction) (fun s p => { s with refraction := p }) (some .refraction)).map fun s => (s, { q.2 with refr := true })
  else if k.name = text "bump" then (texStep ov k q.1 .bump).map fun s => (s, q.2)
  else if k.name = text "spec_level" then (scalarStep ov k q.1 (·.specF) (fun s p => { s with specF := p }) (some .specLevel)).map fun s => (s, q.2)
  else if k.name = text "emission_level" then
    (scalarStep ov k q.1 (·.emissionF) (fun s p => { s with emissionF := p, isEmission := true }) (some .emission)).map fun s => (s, q.2)
  else if k.name = text "faceted" ∨ k.name = text "double_sided" ∨ k.name = text "wireframe" ∨ k.name = text "face_map" then
    some ({ q.1 with marks := q.1.marks ++ [(k.name, k.direct)] }, q.2)
  else if k.name = text "displacement" then (texStep ov k q.1 .displacement).map fun s => (s, q.2)
  else if k.name = text "filter_color" then (texStep ov k q.1 .filter).map fun s => (s, q.2)
  else some q

/-- FAXMaterialImport.cpp 1376-1398: what was not seen. -/
def stdEnd (q : StdFx × StdSeen) : StdFx :=
  { q.1 with
    transl := if q.2.transl then q.1.transl else { q.1.transl with value := if q.1.rgbZero then (0, 0, 0, 0) else (1, 1, 1, 1) }
    translF := if q.2.transl then q.1.translF else { q.1.translF with value := if q.1.rgbZero then 0 else 1 }
    reflect := if q.2.refl then q.1.reflect else { q.1.reflect with value := (0, 0, 0, 0) }
    reflectF := if q.2.refl then q.1.reflectF else { q.1.reflectF with value := 0 }
    reflective := q.2.refl
    refractive := q.2.refr }

/-- FAXMaterialImport.cpp 1258-1267: the lighting of an element. -/
def lightingOf (t : Text) : Option Lighting :=
  if t = text "constant" then some .constant else if t = text "lambert" then some .lambert else if t = text "phong" then some .phong else if t = text "blinn" then some .blinn else none

/-- FAXMaterialImport.cpp 1250-1253: the technique of a profile in the extra. -/
def findExtra (n : Node) (p : Text) : Option Node := (n.child (text "extra")).bind fun e => (findTech e.kids p).bind fun i => e.kids[i]?

/-- The parameters below an element, if there is one. -/
def paramsIn (n : Option Node) : List Node := (n.map fun k => k.kids.filter fun k => decide (k.name ≠ text "technique") && decide (k.name ≠ text "extra")).getD []

/-- FAXMaterialImport.cpp 1271-1281: the parameters. -/
def stdNodes (t : Node) : List Node :=
  paramsIn (t.kids.find? fun k => (lightingOf k.name).isSome) ++ paramsIn (findExtra t (text "MAX3D")) ++ paramsIn (findExtra t (text "MAYA")) ++ paramsIn (findExtra t (text "FCOLLADA"))

/-- FAXMaterialImport.cpp 1236-1398: the technique. -/
def loadStdTech (ov : Ov) (s : StdFx) (t : Node) : Option StdFx :=
  ((t.children (text "newparam")).mapM (loadParm ov (text "technique"))).bind fun ps =>
    ((stdNodes t).foldlM (stdStep ov) ({ s with params := s.params ++ ps, lighting := (t.kids.findSome? fun k => lightingOf k.name).getD s.lighting }, {})).map stdEnd

/-- FAXMaterialImport.cpp 1216-1400: `LoadEffectStandard` of the new profile `s`. -/
def loadStd (ov : Ov) (s : StdFx) (n : Node) : Option StdFx :=
  (if n.name = text "profile_COMMON" then n.kids.foldlM (loadFxFirst ov (text "profile_COMMON")) { extra := s.extra, params := s.params } else some { extra := s.extra, params := s.params }).bind fun b =>
    match n.child (text "technique") with
    | none => some { s with params := b.params, extra := b.extra }
    | some t => loadStdTech ov { s with params := b.params, extra := b.extra } t

end Verif.FArc
