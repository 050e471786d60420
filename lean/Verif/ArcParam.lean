import Verif.ArcSurf
import Verif.Enum

/-!
# Model of the saving and loading of effect parameters (FArchiveXML/FAXMaterialExport.cpp, FAXMaterialImport.cpp)

The values of a parameter are not animated. A sampler has the reference of its surface, or nothing; it is found among the parameters when the document is linked.
-/

namespace Verif.FArc

open Verif.FEff (Text text Role)
open Verif.FConv (Ov)
open Verif.FFx (Note Ty)
open Verif.Enum (TextureWrapMode TextureFilterFunction)

/-- FCDEffectParameterSampler.h 41-47: the types of samplers. -/
inductive SKind where
  | one | two | three | cube
deriving DecidableEq

/-- FCDEffectParameterSampler.h 51-58 and FCDEffectParameterSampler.cpp 26-37: a sampler; the defaults are those of a new one. -/
structure Samp where
  kind : SKind := .two
  surface : Text := []
  wrapS : TextureWrapMode := .wrap
  wrapT : TextureWrapMode := .wrap
  wrapP : TextureWrapMode := .wrap
  minF : TextureFilterFunction := .none
  magF : TextureFilterFunction := .none
  mipF : TextureFilterFunction := .none
deriving DecidableEq

/-- FCDEffectParameter.h 340-346 and others: the classes of parameters with their values; `half` is the type of the floats. -/
inductive PBody where
  | bool (b : Bool)
  | int (i : Int)
  | string (t : Text)
  | float (half : Bool) (q : ℚ)
  | float2 (half : Bool) (a b : ℚ)
  | float3 (half : Bool) (v : V3)
  | vector (half : Bool) (a b c d : ℚ)
  | matrix (half : Bool) (m : FConv.Mat)
  | sampler (s : Samp)
  | surface (s : Surf)
deriving DecidableEq

/-- FCDEffectParameter.h 79-82: a parameter. -/
structure Parm where
  role : Role
  ref : Text
  sem : Text
  notes : List Note
  body : PBody
deriving DecidableEq

/-- `GetType`. -/
def PBody.type : PBody → Ty
  | .bool _ => .boolean
  | .int _ => .integer
  | .string _ => .string
  | .float _ _ => .float
  | .float2 _ _ _ => .float2
  | .float3 _ _ => .float3
  | .vector _ _ _ _ _ => .vector
  | .matrix _ _ => .matrix
  | .sampler _ => .sampler
  | .surface _ => .surface

/-! ## Saving -/

/-- FAXMaterialExport.cpp 139-155, FCDEffectParameter.h 47-59: an annotation. -/
def noteNode (a : Note) : Node :=
  .elem (text "annotate") [(text "name", a.name)] []
    (if a.type = 2 then [textChild (text "bool") a.value]
     else if a.type = 8 then [textChild (text "string") a.value]
     else if a.type = 1 then [textChild (text "int") a.value]
     else if a.type = 3 then [textChild (text "float") a.value]
     else [])

/-- FAXMaterialExport.cpp 119-137: the name and the attribute of the element. -/
def headOf (p : Parm) : Text × List (Text × Text) := match p.role with
  | .generator => (text "newparam", [(text "sid", p.ref)])
  | .modifier => (text "setparam", [(text "ref", p.ref)])
  | .referencer => (text "param", [])
  | _ => (text "param", if p.ref = [] then [] else [(text "sid", p.ref)])

/-- FAXMaterialExport.cpp 115-164: `WriteEffectParameter`: the element, to which attributes and children are added. -/
def parmNode (p : Parm) (more : List (Text × Text)) (ks : List Node) : Node :=
  .elem (headOf p).1 ((headOf p).2 ++ more) []
    (p.notes.map noteNode ++ (if p.role = .generator ∧ p.sem ≠ [] then [textChild (text "semantic") p.sem] else []) ++ ks)

/-- FAXMaterialExport.cpp 252-259: the name of the element of a sampler. -/
def SKind.name : SKind → Text
  | .one => text "sampler1D"
  | .two => text "sampler2D"
  | .three => text "sampler3D"
  | .cube => text "samplerCUBE"

/-- FAXMaterialExport.cpp 260-286: the element of a sampler. -/
def sampNode (s : Samp) : Node :=
  .elem s.kind.name [] [] ([textChild (text "source") s.surface] ++
    (match s.kind with
      | .one => [textChild (text "wrap_s") (text s.wrapS.toString)]
      | .two => [textChild (text "wrap_s") (text s.wrapS.toString), textChild (text "wrap_t") (text s.wrapT.toString)]
      | _ => [textChild (text "wrap_s") (text s.wrapS.toString), textChild (text "wrap_t") (text s.wrapT.toString), textChild (text "wrap_p") (text s.wrapP.toString)]) ++
    [textChild (text "minfilter") (text s.minF.toString), textChild (text "magfilter") (text s.magF.toString), textChild (text "mipfilter") (text s.mipF.toString)])

/-- The element of floats or of halves. -/
def floatName (half : Bool) (s : String) : Text := if half then text ("half" ++ s) else text ("float" ++ s)

/-- FAXMaterialExport.cpp 166-511: the functions that write the parameters of each class. -/
def writeParm (fmt : ℚ → Text) (p : Parm) : Option Node := match p.body with
  | .bool b => some (parmNode p [] [valueChild (text "bool") (intText (if b then 1 else 0))])
  | .int i => some (parmNode p [] [valueChild (text "int") (intText i)])
  | .string t => some (parmNode p [] [textChild (text "string") t])
  | .float h q => some (match p.role with
    | .referencer => parmNode p [(text "ref", p.ref)] []
    | .animator => parmNode p [(text "semantic", p.sem), (text "type", text "float")] []
    | _ => parmNode p [] [valueChild (floatName h "") (numText fmt q)])
  | .float2 h a b => some (parmNode p [] [textChild (floatName h "2") (numsText fmt [a, b])])
  | .float3 h v => some (parmNode p [] [textChild (floatName h "3") (vecText fmt v)])
  | .vector h a b c d => some (match p.role with
    | .referencer => parmNode p [(text "ref", p.ref)] []
    | .animator => parmNode p [(text "ref", p.ref), (text "type", text "float4")] []
    | _ => parmNode p [] [textChild (floatName h "4") (numsText fmt [a, b, c, d])])
  | .matrix h m => some (parmNode p [] [textChild (floatName h "4x4") (numsText fmt (FConv.matEntries m))])
  | .sampler s => some (parmNode p [] [sampNode s])
  | .surface s => (surfNode fmt s).map fun n => parmNode p [] [n]

/-! ## Loading -/

/-- FAXMaterialImport.cpp 1738-1757, 1766-1785: the types by name. -/
def typeNames : List (Text × Ty) :=
  [(text "bool", .boolean), (text "float", .float), (text "float2", .float2), (text "float3", .float3), (text "float4", .vector), (text "float4x4", .matrix), (text "half", .float), (text "half2", .float2),
    (text "half3", .float3), (text "half4", .vector), (text "half4x4", .matrix), (text "int", .integer), (text "sampler1D", .sampler), (text "sampler2D", .sampler), (text "sampler3D", .sampler),
    (text "samplerCUBE", .sampler), (text "surface", .surface), (text "string", .string)]

/-- The type with a name. -/
def typeNamed (t : Text) : Option Ty := (typeNames.find? fun x => decide (x.1 = t)).map (·.2)

/-- FAXMaterialImport.cpp 1730-1789: `GetEffectParameterType`; `parent` is the name of the element above. -/
def parmType (parent : Text) (n : Node) : Option Ty :=
  if n.direct = [] ∧ n.kids = [] then
    if parent = text "bind_material" then (prop (some n) (text "type")).map fun t => (typeNamed t).getD .float else some .float
  else some ((n.kids.findSome? fun k => typeNamed k.name).getD .float)

/-- FCDEffectParameterFactory.cpp 17-35 and the constructors: a new parameter. -/
def newBody : Ty → PBody
  | .boolean => .bool false
  | .integer => .int 0
  | .string => .string []
  | .float => .float false 0
  | .float2 => .float2 false 0 0
  | .float3 => .float3 false (0, 0, 0)
  | .vector => .vector false 0 0 0 0
  | .matrix => .matrix false identity
  | .sampler => .sampler {}
  | .surface => .surface {}

/-- FAXMaterialImport.cpp 129-146, FCDEffectParameter.cpp 104-110: an annotation: only its first element counts. -/
def loadNote (k : Node) : Option Note :=
  (prop (some k) (text "name")).bind fun name => match k.kids with
    | [] => some ⟨name, 8, []⟩
    | v :: _ =>
      if v.name = text "string" then (content v).map fun t => ⟨name, 8, t⟩
      else if v.name = text "bool" then some ⟨name, 2, v.direct⟩
      else if v.name = text "int" then some ⟨name, 1, v.direct⟩
      else if v.name = text "float" then some ⟨name, 3, v.direct⟩
      else some ⟨name, 8, []⟩

/-- FAXMaterialImport.cpp 150-152: the usage. -/
def loadRole (old : Role) (name : Text) : Role :=
  if name = text "newparam" then .generator else if name = text "param" then .animator else if name = text "setparam" then .modifier else old

/-- FAXMaterialImport.cpp 185-192: the semantic from an element. -/
def loadSem (n : Node) : Option Text := match n.child (text "semantic") with
  | some k => content k
  | none => some []

/-- FAXMaterialImport.cpp 120-195: `LoadEffectParameter` on a new parameter: usage, reference, semantic and annotations. -/
def loadParmHead (old : Role) (n : Node) : Option (Role × Text × Text × List Note) :=
  ((n.children (text "annotate")).mapM loadNote).bind fun notes => match loadRole old n.name with
    | .generator => (prop (some n) (text "sid")).bind fun r => (FLib.cleanSubId r).bind fun r =>
      if r = [] then some (.generator, r, [], notes) else (loadSem n).map fun s => (.generator, r, s, notes)
    | .modifier => (prop (some n) (text "ref")).bind fun r => (FLib.cleanSubId r).bind fun r =>
      if r = [] then some (.modifier, r, [], notes) else (loadSem n).map fun s => (.modifier, r, s, notes)
    | .animator => (prop (some n) (text "sid")).bind fun r => (FLib.cleanSubId r).bind fun r => (prop (some n) (text "semantic")).map fun s => (.animator, r, s, notes)
    | r => (loadSem n).map fun s => (r, [], s, notes)

/-- FUDaeEnum.cpp 121-129: the mode of a text. -/
def wrapOf (t : Text) : TextureWrapMode := (([.none, .wrap, .mirror, .clamp, .border] : List TextureWrapMode).find? fun s => decide (text s.toString = t)).getD .unknown

/-- FUDaeEnum.cpp 148-158: the filter of a text; `LINEAR` is read although it is not written. -/
def filterOf (t : Text) : TextureFilterFunction :=
  if t = text "LINEAR" then .linear
  else (([.none, .nearest, .nearestMipmapNearest, .linearMipmapNearest, .nearestMipmapLinear, .linearMipmapLinear] : List TextureFilterFunction).find? fun s => decide (text s.toString = t)).getD .unknown

/-- FAXMaterialImport.cpp 401-411: the type of a sampler by name. -/
def skindOf (t : Text) : Option SKind :=
  if t = text "sampler1D" then some .one else if t = text "sampler2D" then some .two else if t = text "sampler3D" then some .three else if t = text "samplerCUBE" then some .cube else none

/-- A value is changed when there is an element. -/
def orKeep {α : Type} (n : Node) (name : Text) (f : Text → α) (old : α) : α := match n.child name with
  | some k => f k.direct
  | none => old

/-- FAXMaterialImport.cpp 419-443: a new sampler of the given type is filled from its element. -/
def loadSampNode (kind : SKind) (n : Node) : Option Samp :=
  (FLib.cleanSubId (direct (n.child (text "source")))).map fun src =>
    { kind := kind, surface := src
      wrapS := orKeep n (text "wrap_s") wrapOf .wrap
      wrapT := orKeep n (text "wrap_t") wrapOf .wrap
      wrapP := orKeep n (text "wrap_p") wrapOf .wrap
      minF := orKeep n (text "minfilter") filterOf .none
      magF := orKeep n (text "magfilter") filterOf .none
      mipF := orKeep n (text "mipfilter") filterOf .none }

/-- FAXMaterialImport.cpp 392-446: the first element that is a sampler; without one the sampler is a new one. -/
def loadSamp (n : Node) : Option Samp := match n.kids.findSome? fun k => (skindOf k.name).map fun s => (s, k) with
  | some (s, k) => loadSampNode s k
  | none => some {}

/-- FAXMaterialImport.cpp 223-229 and others: the element of floats, or else that of halves. -/
def floatChild (n : Node) (s : String) : Bool × Text := match n.child (floatName false s) with
  | some k => (false, k.direct)
  | none => (true, direct (n.child (floatName true s)))

/-- FAXMaterialImport.cpp 198-753: the value of a new parameter of the given type and usage. -/
def loadParmBody (ov : Ov) (role : Role) (ty : Ty) (n : Node) : Option PBody := match ty with
  | .boolean => (readBool (direct (n.child (text "bool")))).map .bool
  | .integer => (readInt ov (direct (n.child (text "int")))).map .int
  | .string => match n.child (text "string") with
    | some k => (content k).map .string
    | none => some (.string [])
  | .float => if role = .animator then some (newBody .float) else (readNum ov (floatChild n "").2).map fun q => .float (floatChild n "").1 q
  | .float2 => (FConv.toVector ov 2 ((floatChild n "2").2 ++ [0])).bind fun r => match r.1 with
    | [a, b] => some (.float2 (floatChild n "2").1 a b)
    | _ => none
  | .float3 => if role = .animator then some (newBody .float3) else (readV3 ov (floatChild n "3").2).map fun v => .float3 (floatChild n "3").1 v
  | .vector => if role = .animator then some (newBody .vector) else (FConv.readFloats ov 4 ((floatChild n "4").2 ++ [0])).bind fun r => match r.1 with
    | [a, b, c, d] => some (.vector (floatChild n "4").1 a b c d)
    | _ => none
  | .matrix => (FConv.toMatrix ov ((floatChild n "4x4").2 ++ [0]) identity).map fun r => .matrix (floatChild n "4x4").1 r.1
  | .sampler => (loadSamp n).map .sampler
  | .surface => match n.child (text "surface") with
    | some k => (loadSurf ov k).map .surface
    | none => none

/-- The loading of a parameter from an element below one with the name `parent`: the type is found, a new parameter made and filled. -/
def loadParm (ov : Ov) (parent : Text) (n : Node) : Option Parm :=
  (parmType parent n).bind fun ty => (loadParmHead .generator n).bind fun h => (loadParmBody ov h.1 ty n).map fun b => ⟨h.1, h.2.1, h.2.2.1, h.2.2.2, b⟩

/-- FAXImportLinking.cpp 342-362: the surface of a sampler is the first parameter with the reference; nothing when there is none or when it is not a surface. -/
def linkSamp (ps : List Parm) (s : Samp) : Option Parm :=
  (ps.find? fun p => decide (p.ref = s.surface)).bind fun p => match p.body with
    | .surface _ => some p
    | _ => none

end Verif.FArc
