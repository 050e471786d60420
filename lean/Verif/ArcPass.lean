import Verif.ArcState
import Verif.ArcSid

/-!
# Saving and loading of shaders and passes

Models `WriteEffectPassShader`, `WriteEffectPass` (`/repo/FColladaPlugins/FArchiveXML/FAXMaterialExport.cpp` 513-569), `LoadEffectPass` and `LoadEffectPassShader` (`FAXMaterialImport.cpp` 756-848). Passes and shaders are
those of `Verif.FPass`. Flags for objects that are not written (`LetWriteObject`) are left out, as are the warnings.
-/

namespace Verif.FArc

open Verif.FEff (Text text)
open Verif.FConv (Ov)
open Verif.FPass (Shader Pass Tech RState findCode)

/-! ## Saving -/

/-- A new element with the elements around it, from the inside out, each with what is new in it: `around` are these elements before. -/
def enclose : Node → List Node → List Node
  | n, [] => [n]
  | n, a :: as => n :: enclose (Node.add n a) as

/-- `AddNodeSid` on a new element: the element, and the text afterwards. -/
def putSid (around : List Node) (n : Node) (wanted : Text) : Option (Node × Text) :=
  (addNodeSid (enclose n around) wanted).map fun r => (match r.1 with | some s => n.put (text "sid") s | none => n, r.2)

/-- FAXMaterialExport.cpp 547-548: a child unless the text is empty. -/
def textUnlessEmpty (name : String) (t : Text) : List Node := if t = [] then [] else [textChild (text name) t]

/-- FAXMaterialExport.cpp 549: the stage. -/
def stageText (frag : Bool) : Text := if frag then text "FRAGMENT" else text "VERTEX"

/-- FAXMaterialExport.cpp 550-554: the name of the shader, with the sub-id of its code. -/
def shaderName (s : Shader) : List Node :=
  if s.name = [] then [] else [match s.code with | none => textChild (text "name") s.name | some c => (textChild (text "name") s.name).put (text "source") c.sid]

/-- FAXMaterialExport.cpp 557-567: a binding, as a pair of reference and symbol. -/
def passBind (b : Text × Text) : Option Node :=
  if b.1 ≠ [] ∧ b.2 ≠ [] then some (.elem (text "bind") [(text "symbol", b.2)] [] [.elem (text "param") [(text "ref", b.1)] [] []]) else none

/-- FAXMaterialExport.cpp 540-569: `WriteEffectPassShader`. -/
def writeShader (s : Shader) : Node :=
  .elem (text "shader") [(text "stage", stageText s.isFragment)] [] (textUnlessEmpty "compiler_target" s.target ++ textUnlessEmpty "compiler_options" s.options ++ shaderName s ++ s.bindings.filterMap passBind)

/-- FAXMaterialExport.cpp 513-538: `WriteEffectPass`: the element, and the name of the pass afterwards. -/
def writePass (fmt : ℚ → Text) (around : List Node) (p : Pass) : Option (Node × Text) :=
  (if p.name = [] then some (leaf (text "pass"), []) else putSid around (leaf (text "pass")) p.name).bind fun r =>
    (p.states.mapM fun s => saveState fmt s.type s.data).map fun ks => (.elem r.1.name r.1.attrs r.1.direct (r.1.kids ++ ks ++ p.shaders.map writeShader), r.2)

/-! ## Loading -/

/-- `ReadNodeContentFull` of an element that may be missing. -/
def optContent : Option Node → Option Text
  | none => some []
  | some n => content n

/-- FAXMaterialImport.cpp 816-817: what the stage says. -/
def stageOf (t : Text) : Option Bool :=
  if t = text "FRAGMENT" ∨ t = text "FRAGMENTPROGRAM" then some true else if t = text "VERTEX" ∨ t = text "VERTEXPROGRAM" then some false else none

/-- FAXMaterialImport.cpp 827-828: the code of a shader. `none` is undefined behaviour: the technique has no profile. -/
def shaderCode (tech : Tech) (sid : Text) : Option (Option FPass.Code) := match findCode tech.codes sid with
  | some c => some (some c)
  | none => tech.profile.map fun l => findCode l sid

/-- FAXMaterialImport.cpp 839-844: a binding. -/
def loadPassBind (k : Node) : Option (Text × Text) := (prop (some k) (text "symbol")).bind fun s => (prop (k.child (text "param")) (text "ref")).map fun r => (r, s)

/-- FAXMaterialImport.cpp 826-844: the rest of a shader with a name and a stage. -/
def loadShaderRest (tech : Tech) (n : Node) (s : Shader) (source : Text) : Option Shader :=
  (shaderCode tech source).bind fun c => (optContent (n.child (text "compiler_target"))).bind fun t => (optContent (n.child (text "compiler_options"))).bind fun o =>
    ((n.children (text "bind")).mapM loadPassBind).map fun bs => { s with code := c, target := t, options := o, bindings := s.bindings ++ bs }

/-- FAXMaterialImport.cpp 793-848: `LoadEffectPassShader`. -/
def loadShader (tech : Tech) (n : Node) (s : Shader) : Option Shader :=
  if n.name ≠ text "shader" then some s
  else (optContent (n.child (text "name"))).bind fun name => (prop (n.child (text "name")) (text "source")).bind fun source =>
    if name = [] then some { s with name := name }
    else (prop (some n) (text "stage")).bind fun st => match stageOf st with
      | none => some { s with name := name }
      | some f => loadShaderRest tech n { s with name := name, isFragment := f } source

/-- FAXMaterialImport.cpp 769-787: one child of a pass. -/
def loadPassKid (ov : Ov) (tech : Tech) (p : Pass) (k : Node) : Option Pass := match stateOf k.name with
  | some t => (FPass.construct t).bind fun d => (loadState ov t k d).bind fun d' => (FPass.addRenderState p t).map fun q => FPass.setData q p.next d'
  | none => if k.name = text "shader" then (loadShader tech k { id := p.next }).map fun s => { p with shaders := p.shaders ++ [s], next := p.next + 1 } else some p

/-- FAXMaterialImport.cpp 756-791: `LoadEffectPass`. -/
def loadPass (ov : Ov) (tech : Tech) (n : Node) (p : Pass) : Option Pass :=
  if n.name ≠ text "pass" then some p
  else (prop (some n) (text "sid")).bind fun name => n.kids.foldlM (loadPassKid ov tech) { p with name := name }

end Verif.FArc
