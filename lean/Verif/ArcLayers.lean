import Verif.ArcScene

/-!
# Model of the layers and times of a document (FArchiveXML/FAXSceneExport.cpp 323-356)

They are written by the visual scene that the document shows, into an `extra` element of its own, and are read with the other parameters of extra trees (ArcScene.lean). The elements before it have other names (ArcScene.lean), so that
`AddChildOnce` makes the `extra` element.
-/

namespace Verif.FArc

open Verif.FEff (Text text)
open Verif.FConv (Ov DateTime)

/-- FAXSceneExport.cpp 336-342: the objects of a layer, each with a blank after it, without the last blank. -/
def layerText (os : List Text) : Text := (os.flatMap fun o => o ++ [32]).dropLast

/-- FAXSceneExport.cpp 334-343: one layer. -/
def layerElem (l : Text × List Text) : Node := .elem (text "layer") (if l.1 = [] then [] else [(text "name", l.1)]) (encode (layerText l.2)) []

/-- FAXSceneExport.cpp 351-352: the start and the end time. -/
def timeElems (fmt : ℚ → Text) (d : Doc) : List Node :=
  (match d.start with | some q => [.elem (text "start_time") [] (numText fmt q) []] | none => []) ++ (match d.stop with | some q => [.elem (text "end_time") [] (numText fmt q) []] | none => [])

/-- FAXSceneExport.cpp 328-354 with FAXColladaWriter.cpp 20-46: the techniques. -/
def visualTechs (fmt : ℚ → Text) (d : Doc) : List Node :=
  (if d.layers = [] then [] else [.elem (text "technique") [(text "profile", text "MAYA")] [] (d.layers.map layerElem)]) ++
    if d.start = none ∧ d.stop = none then [] else [.elem (text "technique") [(text "profile", text "FCOLLADA")] [] (timeElems fmt d)]

/-- FAXSceneExport.cpp 323-356: `WriteVisualScene`: the elements added; `main` if the document shows this scene. -/
def visualExtra (fmt : ℚ → Text) (main : Bool) (d : Doc) : List Node :=
  if main = true ∧ visualTechs fmt d ≠ [] then [.elem (text "extra") [] [] (visualTechs fmt d)] else []

/-- FAXSceneExport.cpp 39-166: `WriteSceneNode` of a visual scene. -/
def writeVScene (ov : Ov) (fmt : ℚ → Text) (now : DateTime) (main : Bool) (d : Doc) (h : Head) (ks : List SNode) : Option Node :=
  (openNode ov fmt now true h).bind fun n => (writeLinks ov ks).bind fun ls => (writeOwns ov fmt now ks).bind fun os => (sceneExtra true h).map fun x =>
    .elem n.name n.attrs n.direct (n.kids ++ h.insts ++ ls ++ os ++ visualExtra fmt main d ++ x)

end Verif.FArc
