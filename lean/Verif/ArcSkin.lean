import Verif.ArcPoly
import Verif.ArcCam
import Verif.Path

/-!
# Model of the saving and loading of skin controllers (FArchiveXML/FAXControllerExport.cpp, FAXControllerImport.cpp)

Numbers of joints and weights are below 2^31. `none` is undefined behaviour.
-/

namespace Verif.FArc

open Verif.FEff (Text text)
open Verif.FConv (Ov Mat)

/-- FCDSkinController.h 41-200: a skin: the address of what it deforms, the bind-shape transform, the joints with the inverses of their bind-poses, and the pairs of joint index and weight of each vertex. -/
structure Skin where
  target : FUri.Uri
  bindShape : Mat := identity
  joints : List (Text × Mat) := []
  verts : List (List (Int × ℚ)) := []

/-- FMFloat.h 29: `IsEquivalent` of two numbers. -/
def near (x y : ℚ) : Bool := decide (x - y < tolerance) && decide (y - x < tolerance)

/-! ## Saving -/

/-- FAXControllerExport.cpp 65-76: the weights that are written: 1, and those not near 1. -/
def weightsOf (verts : List (List (Int × ℚ))) : List ℚ := 1 :: (verts.flatten.map (·.2)).filter fun w => !near w 1

/-- FAXControllerExport.cpp 94-107: the numbers in `<v>`: `next` is `weightOffset`. -/
def pairNumbers : Nat → List (Int × ℚ) → List Int
  | _, [] => []
  | next, p :: ps => if near p.2 1 then p.1 :: 0 :: pairNumbers next ps else p.1 :: (next : Int) :: pairNumbers (next + 1) ps

/-- FAXControllerExport.cpp 92-110: the text in `<vcount>`: a blank follows each number. -/
def vcountText (verts : List (List (Int × ℚ))) : Text := verts.flatMap fun v => natText v.length ++ [32]

/-- FAXControllerExport.cpp 92-110: the text in `<v>`; the last blank is taken away. -/
def vText (verts : List (List (Int × ℚ))) : Text := ((pairNumbers 1 verts.flatten).flatMap fun i => intText i ++ [32]).dropLast

/-- FAXControllerExport.cpp 30-112: `WriteSkinController`; `id` is the id of the controller, `stack` the root uris of the file manager. -/
def writeSkin (ov : Ov) (fmt : ℚ → Text) (stack : List FUri.Uri) (id : Text) (s : Skin) : Option Node :=
  (FPath.cleanUri ov stack false s.target).map fun t =>
    .elem (text "skin") [(text "source", t)] []
      ([textChild (text "bind_shape_matrix") (numsText fmt (FConv.matEntries s.bindShape)),
        sourceNames (id ++ text "-joints") (s.joints.map (·.1)) (text "JOINT") false,
        sourceMatrices fmt (id ++ text "-bind_poses") (s.joints.map (·.2)),
        sourceFloats fmt (id ++ text "-weights") (weightsOf s.verts) 1 (some [text "WEIGHT"]),
        .elem (text "joints") [] [] (inputNode (id ++ text "-joints") (text "JOINT") (-1) (-1) ++ inputNode (id ++ text "-bind_poses") (text "INV_BIND_MATRIX") (-1) (-1)),
        .elem (text "vertex_weights") [(text "count", natText s.verts.length)] []
          (inputNode (id ++ text "-joints") (text "JOINT") 0 (-1) ++ inputNode (id ++ text "-weights") (text "WEIGHT") 1 (-1) ++
            [textChild (text "vcount") (vcountText s.verts), textChild (text "v") (vText s.verts)])])

/-! ## Loading -/

/-- FAXColladaParser.cpp 29-36: the first element with an id. -/
def firstWithId (id : Text) : List Node → Option (Option Node)
  | [] => some none
  | k :: ks => (prop (some k) (text "id")).bind fun t => if t = id then some (some k) else firstWithId id ks

/-- FAXColladaParser.cpp 23-39: `FindChildById`. -/
def findById (n : Node) (id : Text) : Option (Option Node) := if id = [] then some none else firstWithId (stripHash id) n.kids

/-- FAXControllerImport.cpp 77-83: the bind-shape transform; that of an empty element is not initialized. -/
def loadBindShape (ov : Ov) (n : Node) : Option Mat := match n.child (text "bind_shape_matrix") with
  | none => some identity
  | some k => if k.direct = [] then none else (FConv.toMatrix ov (k.direct ++ [0]) identity).map (·.1)

/-- FAXControllerImport.cpp 107-114: a `<v>` or `<vcount>` element. -/
def isCombiner (n : Node) : Bool := decide (n.name = text "v") || decide (n.name = text "vcount")

/-- FAXControllerImport.cpp 102-114: the inputs of `<joints>` and those of `<vertex_weights>` before the values. -/
def skinInputs (joints combiner : Node) : List Node :=
  joints.children (text "input") ++ (combiner.kids.takeWhile fun k => !isCombiner k).filter fun k => decide (k.name = text "input")

/-- FAXControllerImport.cpp 121-124: what the inputs give. -/
structure SkinData where
  names : List Text := []
  poses : List Mat := []
  weights : List ℚ := []
  jointIdx : Int := 0
  weightIdx : Int := 1
  sids : Bool := false

/-- FAXControllerImport.cpp 133-134, 151-152: the offset of an input, if it has one. -/
def offsetOr (ov : Ov) (k : Node) (old : Int) : Option Int := (prop (some k) (text "offset")).bind fun t => if t = [] then some old else readInt ov t

/-- FAXControllerImport.cpp 131-138: an input of joints. -/
def jointInput (ov : Ov) (k : Node) (src : Option Node) (d : SkinData) : Option SkinData :=
  (offsetOr ov k d.jointIdx).bind fun i =>
    if d.names ≠ [] then some { d with jointIdx := i }
    else match src with
      | none => some { d with jointIdx := i, sids := false }
      | some src => (readNames src d.names).map fun l => { d with jointIdx := i, names := l, sids := (src.child (text "Name_array")).isSome }

/-- FAXControllerImport.cpp 139-148: an input of matrices. -/
def poseInput (ov : Ov) (src : Option Node) (d : SkinData) : Option SkinData := match src with
  | none => some d
  | some src => (readMatrices ov src d.poses).map fun l => { d with poses := l }

/-- FAXControllerImport.cpp 149-156: an input of weights. -/
def weightInput (ov : Ov) (k : Node) (src : Option Node) (d : SkinData) : Option SkinData :=
  (offsetOr ov k d.weightIdx).bind fun i => match src with
    | none => some { d with weightIdx := i }
    | some src => (readFloats ov src d.weights).map fun l => { d with weightIdx := i, weights := l.2 }

/-- FAXControllerImport.cpp 125-157: one of the inputs. -/
def skinInput (ov : Ov) (skin : Node) (d : SkinData) (k : Node) : Option SkinData :=
  (prop (some k) (text "semantic")).bind fun sem => (prop (some k) (text "source")).bind fun id => (findById skin id).bind fun src =>
    if sem = text "JOINT" then jointInput ov k src d
    else if sem = text "INV_BIND_MATRIX" then poseInput ov src d
    else if sem = text "WEIGHT" then weightInput ov k src d
    else some d

/-- FAXControllerImport.cpp 159-180: the numbers in `<vcount>` and `<v>`. A missing element is dereferenced (lines 164, 176). -/
def combinerNumbers (ov : Ov) (combiner : Node) : Option (List Nat × List Int) := match combiner.kids.dropWhile fun k => !isCombiner k with
  | c :: v :: _ => (FConv.toList FConv.toUInt32 0 (c.direct ++ [0]) []).bind fun counts => (FConv.toList (FConv.toInt32 ov) 0 (v.direct ++ [0]) []).map fun vs => (counts, vs)
  | _ => none

/-- `operator[]` of a list with a `size_t` index: outside it is undefined. -/
def atIndex {α : Type} (l : List α) (i : Int) : Option α := if i < 0 then none else l[i.toNat]?

/-- FAXControllerImport.cpp 202-215: the pair that starts at `offset`. -/
def loadPair (d : SkinData) (vs : List Int) (offset : Nat) : Option (Int × ℚ) :=
  (atIndex vs (offset + d.jointIdx)).bind fun j => (atIndex vs (offset + d.weightIdx)).bind fun w =>
    (d.weights[if d.weights.length ≤ (w % 2 ^ 32).toNat then 0 else (w % 2 ^ 32).toNat]?).map fun q => (if j < -1 ∨ d.names.length ≤ j then -1 else j, q)

/-- FAXControllerImport.cpp 200-217: the pairs of a vertex, `k` being still to be read. The bound `combinerVertexIndexCount - 1` wraps around when there are no numbers. Pairs that are not read are those of
FCDSkinController.h 44. -/
def loadPairs (d : SkinData) (vs : List Int) : Nat → Nat → Option (List (Int × ℚ) × Nat)
  | 0, offset => some ([], offset)
  | k + 1, offset =>
    if vs = [] ∨ offset < vs.length - 1 then (loadPair d vs offset).bind fun p => (loadPairs d vs k (offset + 2)).map fun r => (p :: r.1, r.2)
    else some (List.replicate (k + 1) (-1, 0), offset)

/-- FAXControllerImport.cpp 192-218: the pairs of all vertices: `left` vertices from the one at `j` on. -/
def loadVerts (d : SkinData) (counts : List Nat) (vs : List Int) : Nat → Nat → Nat → Option (List (List (Int × ℚ)))
  | 0, _, _ => some []
  | left + 1, j, offset => (counts[j]?).bind fun c => (loadPairs d vs c offset).bind fun r => (loadVerts d counts vs left (j + 1) r.2).map (r.1 :: ·)

/-- FAXControllerImport.cpp 220-231: the weights of a vertex, brought to the sum 1. -/
def normalizeVert (v : List (Int × ℚ)) : List (Int × ℚ) :=
  let sum := (v.map (·.2)).sum
  if near sum 0 || near sum 1 then v else v.map fun p => (p.1, p.2 * (1 / sum))

/-- FAXControllerImport.cpp 233-239: the joints: there must be a matrix for each. -/
def makeJoints : List Text → List Mat → Option (List (Text × Mat))
  | [], _ => some []
  | _ :: _, [] => none
  | t :: ts, m :: ms => (makeJoints ts ms).map ((t, m) :: ·)

/-- The skin that was loaded, whether that succeeded, and `jointAreSids`. -/
structure SkinResult where
  ok : Bool
  skin : Skin
  sids : Bool := false

/-- FAXControllerImport.cpp 100-242: what is done once both elements are found. -/
def loadSkinBody (ov : Ov) (n joints combiner : Node) (s : Skin) : Option SkinResult :=
  (countOf (some combiner)).bind fun count => ((skinInputs joints combiner).foldlM (skinInput ov n) {}).bind fun d => (combinerNumbers ov combiner).bind fun c =>
    (loadVerts d c.1 c.2 count 0 0).bind fun verts => (makeJoints d.names d.poses).map fun js =>
      { ok := true, skin := { s with verts := verts.map normalizeVert, joints := js }, sids := d.sids }

/-- FAXControllerImport.cpp 57-243: `LoadSkinController` into a new skin, from an element with the right name. -/
def loadSkin (ov : Ov) (n : Node) : Option SkinResult :=
  (loadBindShape ov n).bind fun m => (prop (some n) (text "source")).bind fun t => (FUri.parse ov t).bind fun u =>
    match n.child (text "joints"), n.child (text "vertex_weights") with
    | some joints, some combiner => loadSkinBody ov n joints combiner { target := u, bindShape := m }
    | _, _ => some { ok := false, skin := { target := u, bindShape := m } }

end Verif.FArc
