import Verif.ArcSid
import Verif.Lib

/-!
# Model of the saving and loading of transforms (FArchiveXML/FAXSceneExport.cpp, FAXSceneImport.cpp)

The transforms of a scene node that are not animated. The element they are written into is that of an entity and has an id, so that elements further out are not looked at for the sub-ids.
-/

namespace Verif.FArc

open Verif.FEff (Text text)
open Verif.FConv (Ov)

/-- `FMVector3`. -/
abbrev V3 := ℚ × ℚ × ℚ

/-- FCDTransform.h: the transforms with their values, in the order of the constructors of FMLookAt.h, FMAngleAxis.h and FMSkew.h or of the writer. -/
inductive Trans where
  | lookAt (position target up : V3)
  | matrix (m : FConv.Mat)
  | rotation (axis : V3) (angle : ℚ)
  | scale (s : V3)
  | skew (angle : ℚ) (rotate around : V3)
  | translation (t : V3)
deriving DecidableEq

/-- FUStringConversion.hpp 271-275: the text of a vector. -/
def vecText (fmt : ℚ → Text) (v : V3) : Text := numsText fmt [v.1, v.2.1, v.2.2]

/-- FAXSceneExport.cpp 177-245: the element of a transform, without sub-id. -/
def transNode (fmt : ℚ → Text) : Trans → Node
  | .lookAt p t u => textChild (text "lookat") (vecText fmt p ++ [32] ++ vecText fmt t ++ [32] ++ vecText fmt u)
  | .matrix m => textChild (text "matrix") (numsText fmt (FConv.matEntries m))
  | .rotation x a => valueChild (text "rotate") (vecText fmt x ++ [32] ++ numText fmt a)
  | .scale s => valueChild (text "scale") (vecText fmt s)
  | .skew a r x => valueChild (text "skew") (numText fmt a ++ [32] ++ vecText fmt r ++ [32] ++ vecText fmt x)
  | .translation t => valueChild (text "translate") (vecText fmt t)

/-- FAXSceneExport.cpp 177-245, 358-373: a transform with its sub-id, written into `parent`: the element, and the sub-id of the transform afterwards. -/
def writeTransform (fmt : ℚ → Text) (parent : Node) (x : Trans × Text) : Option (Node × Text) :=
  if x.2 = [] then some (transNode fmt x.1, [])
  else (addNodeSid [transNode fmt x.1, Node.add (transNode fmt x.1) parent] x.2).map fun r =>
    (match r.1 with | some s => Node.put (text "sid") s (transNode fmt x.1) | none => transNode fmt x.1, r.2)

/-- FAXSceneExport.cpp 76-82: the loop over the transforms: the element afterwards, and the sub-ids of the transforms. -/
def writeTransforms (fmt : ℚ → Text) : Node → List (Trans × Text) → Option (Node × List Text)
  | p, [] => some (p, [])
  | p, x :: xs => (writeTransform fmt p x).bind fun r => (writeTransforms fmt (Node.add r.1 p) xs).map fun q => (q.1, r.2 :: q.2)

/-- The identity. -/
def matOne : FConv.Mat := fun i j => if i = j then 1 else 0

/-- FAXSceneImport.cpp 422-431 and FCDTransform.cpp 63-277: the kind of transform of an element, as a new transform of that kind. -/
def newTrans (name : Text) : Option Trans :=
  if name = text "rotate" then some (.rotation (1, 0, 0) 0)
  else if name = text "translate" then some (.translation (0, 0, 0))
  else if name = text "scale" then some (.scale (1, 1, 1))
  else if name = text "skew" then some (.skew 0 (1, 0, 0) (0, 1, 0))
  else if name = text "matrix" then some (.matrix matOne)
  else if name = text "lookat" then some (.lookAt (0, 0, 0) (0, 0, -1) (0, 1, 0))
  else none

/-- FMVector3.h 253 and FMFloat.h 24-29: `IsEquivalent` of a vector and the origin. -/
def isOrigin (v : V3) : Bool := let t : ℚ := 1 / 10000
  (decide (v.1 < t) && decide (-v.1 < t)) && ((decide (v.2.1 < t) && decide (-v.2.1 < t)) && (decide (v.2.2 < t) && decide (-v.2.2 < t)))

/-- FMVector3.h 91: `Normalize`; `len` is `Length`. -/
def unit (len : V3 → ℚ) (v : V3) : V3 := if 0 < len v then (v.1 / len v, v.2.1 / len v, v.2.2 / len v) else (1, 0, 0)

/-- FAXSceneImport.cpp 307-420: a new transform is filled from an element: the transform, and whether that is a success. -/
def loadTransform (ov : Ov) (len : V3 → ℚ) (old : Trans) (k : Node) : Option (Trans × Bool) :=
  match old with
  | .matrix m => (FConv.toMatrix ov (k.direct ++ [0]) m).map fun r => (.matrix r.1, true)
  | _ => (FConv.toList (FConv.toFloat ov) 0 (k.direct ++ [0]) []).map fun l =>
    match old, l with
    | .lookAt .., [a, b, c, d, e, f, g, h, i] => (.lookAt (a, b, c) (d, e, f) (g, h, i), true)
    | .rotation .., [a, b, c, d] => (.rotation (a, b, c) d, true)
    | .scale _, [a, b, c] => (.scale (a, b, c), true)
    | .skew .., [a, b, c, d, e, f, g] =>
      if isOrigin (b, c, d) || isOrigin (e, f, g) then (.skew a (b, c, d) (e, f, g), false) else (.skew a (unit len (b, c, d)) (unit len (e, f, g)), true)
    | .translation _, [a, b, c] => (.translation (a, b, c), true)
    | old, _ => (old, false)

/-- FAXSceneImport.cpp 172-179, FCDTransform.cpp 44-48: a child element of a scene node that is a transform of the given kind: the transform with its sub-id, and whether that is a success. -/
def loadTransChild (ov : Ov) (len : V3 → ℚ) (old : Trans) (k : Node) : Option ((Trans × Text) × Bool) :=
  (prop (some k) (text "sid")).bind fun s => (FLib.cleanSubId s).bind fun s => (loadTransform ov len old k).map fun r => ((r.1, s), r.2)

/-- FAXSceneImport.cpp 128-193: what is done for one child element, as far as transforms are concerned. -/
def transStep (ov : Ov) (len : V3 → ℚ) (s : List (Trans × Text) × Bool) (k : Node) : Option (List (Trans × Text) × Bool) :=
  match newTrans k.name with
  | none => some s
  | some old => (loadTransChild ov len old k).map fun r => (s.1 ++ [r.1], s.2 && r.2)

/-- FAXSceneImport.cpp 128-193: the transforms of an element, in order, and whether all were read. -/
def loadTransforms (ov : Ov) (len : V3 → ℚ) (n : Node) : Option (List (Trans × Text) × Bool) := n.kids.foldlM (transStep ov len) ([], true)

end Verif.FArc
