import Verif.Arc
import Verif.ArcExtra
import Verif.Poly
import Verif.Enum

/-!
# Model of the saving and loading of polygon sets (FColladaPlugins/FArchiveXML/FAXGeometryExport.cpp 144-310, FAXGeometryImport.cpp 246-555)

A source is known by its position in the list of sources of its mesh. Animations of the values of sources are left out, sums of face-vertex counts are not reduced modulo 2^32, and loading is not cancelled.
`none` is undefined behaviour.
-/

namespace Verif.FArc

open Verif.FEff (Text text)
open Verif.FConv (Ov)
open Verif.FPoly (Prim)
open Verif.Enum (GeometryInput)

/-- FCDGeometrySource.h 47-51: a source of data. -/
structure GSource where
  id : Text
  name : Text
  type : GeometryInput
  stride : Nat
  data : List ℚ
  extra : FExtra.Extra

/-- FCDGeometryPolygonsInput.h 52-56: an input; the source may be NULL. -/
structure GInput where
  source : Option Nat
  set : Int
  offset : Nat
  indices : List Nat
deriving DecidableEq

/-- FCDGeometryPolygons.h 86-96: a polygon set. -/
structure GSet where
  prim : Prim
  inputs : List GInput
  counts : List Nat
  holes : List Nat
  material : Text
  extra : FExtra.Extra

/-- FCDGeometryMesh.h 62-71: a mesh; `id` is the id of its geometry, `vertex` are the sources with per-vertex data. -/
structure GMesh where
  id : Text
  sources : List GSource
  vertex : List Nat
  sets : List GSet
  convex : Bool
  hull : Text

/-! ## Inputs -/

/-- FCDGeometryPolygonsInput.h 113: `OwnsIndices`. -/
def GInput.owns (x : GInput) : Bool := !x.indices.isEmpty

/-- FCDGeometryPolygonsInput.cpp 125-138: `FindIndices`: the position of the input whose list is used for the input at `i`. -/
def ownerOf (ins : List GInput) (i : Nat) : Nat :=
  match ins[i]? with
  | none => i
  | some x => if x.owns then i else (ins.findIdx? fun y => decide (y.offset = x.offset) && y.owns).getD i

/-- FCDGeometryPolygonsInput.cpp 98-106: `GetIndices`, `GetIndexCount`. -/
def indicesOf (ins : List GInput) (i : Nat) : List Nat := ((ins[ownerOf ins i]?).map GInput.indices).getD []

/-- FCDGeometryPolygonsInput.cpp 119-123: `AddIndices`. -/
def addIndices (ins : List GInput) (i : Nat) (l : List Nat) : List GInput := ins.modify (ownerOf ins i) fun x => { x with indices := x.indices ++ l }

/-- FCDGeometryPolygons.cpp 173-181: `AddInput`. -/
def newInput (s offset : Nat) : GInput := ⟨some s, -1, offset, []⟩

/-- The polygon set without its inputs, for the functions on faces and holes of `Verif/Poly.lean`. -/
def GSet.polys (P : GSet) : FPoly.Polys := ⟨P.counts, P.holes, [], P.prim, P.counts.sum⟩

/-- FCDGeometryPolygons.cpp 275-285: `TestPolyType() == 3`. -/
def allTriangles (counts : List Nat) : Bool := !counts.isEmpty && counts.all fun c => decide (c = 3)

/-! ## Saving -/

/-- The conversion of a `uint32` to `int32`. -/
def toSigned (n : Nat) : Int := if n < 2 ^ 31 then n else (n : Int) - 2 ^ 32

/-- FAXColladaWriter.cpp 57-66: `AddInput`: the new element, if any. -/
def inputNode (id semantic : Text) (offset set : Int) : List Node :=
  if id = [] ∨ semantic = [] then []
  else [.elem (text "input") ([(text "semantic", semantic), (text "source", 35 :: id)] ++ (if 0 ≤ offset then [(text "offset", intText offset)] else []) ++
    (if 0 ≤ set then [(text "set", intText set)] else [])) [] []]

/-- The source at a position. -/
def GMesh.source (M : GMesh) (s : Nat) : Option GSource := M.sources[s]?

/-- FAXGeometryExport.cpp 183-199: the elements for the inputs; the flag is `isVertexInputFound`. A position without a source does not occur. -/
def writeInputs (M : GMesh) : Bool → List GInput → List Node
  | _, [] => []
  | found, x :: xs => match x.source with
    | none => writeInputs M found xs
    | some s =>
      if s ∈ M.vertex then
        (if found then [] else inputNode (M.id ++ text "-vertices") (text "VERTEX") (toSigned x.offset) (-1)) ++ writeInputs M true xs
      else (match M.source s with
        | some src => inputNode src.id (text src.type.toString) (toSigned x.offset) x.set
        | none => []) ++ writeInputs M found xs

/-- FMArrayPointer.h 220: `resize`, if the list is not long enough: new pointers are NULL. -/
def extend {α : Type} (l : List (Option α)) (n : Nat) : List (Option α) := l ++ List.replicate (n - l.length) none

/-- FAXGeometryExport.cpp 201-205: the lists of indices by their offset, those of later inputs replacing those of earlier ones. -/
def indexColumns (ins : List GInput) : List (Option (List Nat)) :=
  ins.foldl (fun os x => if x.owns then (extend os (x.offset + 1)).set x.offset (some x.indices) else os) []

/-- FAXGeometryExport.cpp 257-262: the text of an index of a corner. -/
def columnText (i : Nat) : Option (List Nat) → Option Text
  | some l => (l[i]?).map fun v => natText v ++ [32]
  | none => some (text "0 ")

/-- FAXGeometryExport.cpp 255-263: the text of the indices of one corner. -/
def cornerText (os : List (Option (List Nat))) (i : Nat) : Option Text := (os.mapM (columnText i)).map List.flatten

/-- FAXGeometryExport.cpp 253-264: the text of the indices of `n` corners from `off`. -/
def cornersText (os : List (Option (List Nat))) (off n : Nat) : Option Text := ((List.range' off n).mapM (cornerText os)).map List.flatten

/-- FAXGeometryExport.cpp 249-281: `n` faces or holes from the position `pos` of the face-vertex counts, whose corners start at `off`: the text of each, and the offset behind them. -/
def loopTexts (os : List (Option (List Nat))) (counts : List Nat) : Nat → Nat → Nat → Option (List Text × Nat)
  | 0, _, off => some ([], off)
  | n + 1, pos, off => (counts[pos]?).bind fun c => (cornersText os off c).bind fun t => (loopTexts os counts n (pos + 1) (off + c)).map fun r => (t :: r.1, r.2)

/-- FAXGeometryExport.cpp 231-247, 267-278: the element of a face, given the text of the face and of each hole; the last blank is taken out. -/
def faceNode : List Text → Node
  | [] => leaf (text "p")
  | [t] => .elem (text "p") [] t.dropLast []
  | t :: ts => .elem (text "ph") [] [] (.elem (text "p") [] t.dropLast [] :: ts.map fun h => .elem (text "h") [] h.dropLast [])

/-- FAXGeometryExport.cpp 225-283: the elements of the faces, each written on its own: `n` faces from `k`, with `ho` holes before. -/
def faceNodes (P : GSet) (os : List (Option (List Nat))) : Nat → Nat → Nat → Nat → Option (List Node)
  | 0, _, _, _ => some []
  | n + 1, k, off, ho =>
    (loopTexts os P.counts (FPoly.holeCount P.polys k + 1) (k + ho) off).bind fun r =>
      (faceNodes P os n (k + 1) r.2 (ho + FPoly.holeCount P.polys k)).map (faceNode r.1 :: ·)

/-- FAXGeometryExport.cpp 152-174: whether every face is written on its own (`hasHoles`). -/
def ownFaces (P : GSet) : Bool := match P.prim with
  | .polygons => !P.holes.isEmpty
  | .points => false
  | _ => true

/-- FAXGeometryExport.cpp 152-174: whether the faces are not known to be triangles (`hasNPolys`). -/
def nPolys (P : GSet) : Bool := match P.prim with
  | .polygons => !P.holes.isEmpty || !allTriangles P.counts
  | _ => true

/-- FAXGeometryExport.cpp 155-174: the name of the element. -/
def setName (P : GSet) : Text := match P.prim with
  | .polygons => if ownFaces P then text "polygons" else if nPolys P then text "polylist" else text "triangles"
  | .lines => text "lines"
  | .lineStrips => text "linestrips"
  | .triangleFans => text "trifans"
  | .triangleStrips => text "tristrips"
  | .points => text "points"

/-- FAXGeometryExport.cpp 211-290: the elements of the tessellation. -/
def tessNodes (P : GSet) : Option (List Node) :=
  if ownFaces P then faceNodes P (indexColumns P.inputs) (FPoly.faceCount P.polys) 0 0 0
  else (loopTexts (indexColumns P.inputs) P.counts (FPoly.faceCount P.polys) 0 0).map fun r =>
    (if nPolys P then [.elem (text "vcount") [] (wordsText (P.counts.map natText)) []] else []) ++ [.elem (text "p") [] r.1.flatten.dropLast []]

/-- FAXGeometryExport.cpp 298-304: the number of primitives. -/
def primCount (P : GSet) : Option Nat :=
  if P.prim = .lines ∧ 0 < FPoly.faceCount P.polys then (FPoly.faceVertexCount P.polys 0).map (· / 2) else some (FPoly.faceCount P.polys)

/-- FAXGeometryExport.cpp 144-310: `WriteGeometryPolygons`. -/
def writeSet (M : GMesh) (P : GSet) : Option Node :=
  (tessNodes P).bind fun ts => (primCount P).map fun n =>
    .elem (setName P) ((if P.material = [] then [] else [(text "material", P.material)]) ++ [(text "count", natText n)]) []
      (writeInputs M false P.inputs ++ ts ++ writeExtra P.extra)

/-! ## Loading -/

/-- FUDaeEnum.cpp 266-282: `FUDaeGeometryInput::FromString`, on texts. -/
def semanticOf (t : Text) : GeometryInput :=
  ([.position, .vertex, .normal, .geotangent, .geobinormal, .texcoord, .textangent, .texbinormal, .uv, .color, .pointSize, .pointRotation, .extra].find? fun s =>
    decide (text (GeometryInput.toString s) = t)).getD .unknown

/-- `if (id[0] == '#') ++id`. -/
def stripHash : Text → Text
  | [] => []
  | c :: t => if c = 35 then t else c :: t

/-- FCDGeometryMesh.cpp 80-89: `FindSourceById`. -/
def findSource (ss : List GSource) (id : Text) : Option Nat := ss.findIdx? fun s => decide (s.id = stripHash id)

/-- FAXGeometryImport.cpp 706-729: `SetTypeFCDGeometrySource`, without the animation. -/
def setType (ss : List GSource) (s : Nat) (type : GeometryInput) : List GSource := ss.modify s fun x => { x with type := type }

/-- FCDGeometryPolygons.cpp 226-233: `FindInput(source)`: its position. -/
def findInput (ins : List GInput) (s : Nat) : Option Nat := ins.findIdx? fun x => decide (x.source = some s)

/-- The state of loading the inputs. -/
structure HeadState where
  sources : List GSource
  inputs : List GInput
  owners : List (Option Nat)
  hasVertex : Bool
  extra : FExtra.Extra

/-- `if (idxOwners[offset] == NULL) idxOwners[offset] = input`. -/
def claimOffset (os : List (Option Nat)) (offset i : Nat) : List (Option Nat) := if (os[offset]?).join = none then os.set offset (some i) else os

/-- FAXGeometryImport.cpp 313-321: one round of the loop over the vertex sources. -/
def loadVertexInput (offset : Nat) (set : Int) (st : List GInput × List (Option Nat)) (s : Nat) : List GInput × List (Option Nat) :=
  let ins := if (findInput st.1 s).isSome then st.1 else st.1 ++ [newInput s offset]
  let i := (findInput ins s).getD 0
  (ins.modify i fun x => { x with set := set }, claimOffset st.2 offset i)

/-- FAXGeometryImport.cpp 285-339: one `<input>`. -/
def loadInput (ov : Ov) (vertex : List Nat) (n : Node) (st : HeadState) : Option HeadState :=
  (prop n (text "source")).bind fun source =>
  (prop n (text "offset")).bind fun idx => (if idx = [] then some (st.owners.length + 1) else readNat idx).bind fun offset =>
  (prop n (text "set")).bind fun setText => (if setText = [] then some (-1) else readInt ov setText).bind fun set =>
  (prop n (text "semantic")).bind fun sem =>
    let owners := extend st.owners (offset + 1)
    match semanticOf sem with
    | .unknown => some { st with owners := owners }
    | .vertex =>
      if st.hasVertex then some { st with owners := owners }
      else let r := vertex.foldl (loadVertexInput offset set) (st.inputs, owners); some { st with inputs := r.1, owners := r.2, hasVertex := true }
    | type => match findSource st.sources (stripHash source) with
      | some s => some { st with sources := setType st.sources s type, inputs := st.inputs ++ [{ newInput s offset with set := set }],
                                 owners := claimOffset owners offset st.inputs.length }
      | none => some { st with owners := owners }

/-- FAXGeometryImport.cpp 344-346: the elements at which the tessellation starts. -/
def isTess (n : Node) : Bool := decide (n.name = text "p") || decide (n.name = text "vcount") || decide (n.name = text "ph")

/-- FAXGeometryImport.cpp 277-354: the children up to the tessellation, and the rest. -/
def loadHead (ov : Ov) (vertex : List Nat) : List Node → HeadState → Option (HeadState × List Node)
  | [], st => some (st, [])
  | n :: ns, st =>
    if n.name = text "input" then (loadInput ov vertex n st).bind (loadHead ov vertex ns)
    else if n.name = text "extra" then (loadExtra st.extra n).bind fun e => loadHead ov vertex ns { st with extra := e }
    else if isTess n then some (st, n :: ns)
    else loadHead ov vertex ns st

/-- The state of loading the tessellation; `arrays` is `allIndices`. -/
structure TessState where
  inputs : List GInput
  counts : List Nat
  holes : List Nat
  arrays : List (Option (List Nat))
  extra : FExtra.Extra

/-- FAXGeometryImport.cpp 488-489, 502-503: push one list of indices to the input of its offset, if there is one. -/
def pushOne (ins : List GInput) (oa : Option Nat × Option (List Nat)) : List GInput := match oa.1 with
  | some i => addIndices ins i (oa.2.getD [])
  | none => ins

/-- FAXGeometryImport.cpp 485-490, 500-504: push the indices read to the inputs. -/
def pushIndices (owners : List (Option Nat)) (arrays : List (Option (List Nat))) (ins : List GInput) : List GInput := (owners.zip arrays).foldl pushOne ins

/-- FAXGeometryImport.cpp 420-435: the size of `masterIndices`, the first list; NULL if there is none. -/
def masterSize (arrays : List (Option (List Nat))) : Option Nat := (arrays.find? Option.isSome).join.map List.length

/-- The ways the faces are counted: those of `<polygons>` and of the other primitives, of `<triangles>`, and of `<polylist>`. -/
inductive Way where
  | polygons | triangles | polylist
deriving DecidableEq

/-- FAXGeometryImport.cpp 478-490: read and push the indices of a face. -/
def loadFace (owners : List (Option Nat)) (way : Way) (content : Text) (st : TessState) : Option TessState :=
  (FConv.toInterleaved FConv.toUInt32 0 (content ++ [0]) st.arrays).bind fun as => (masterSize as).map fun n =>
    { st with arrays := as, inputs := pushIndices owners as st.inputs,
              counts := match way with
                | .triangles => st.counts ++ List.replicate (n / 3) 3
                | .polygons => st.counts ++ [n]
                | .polylist => st.counts }

/-- FAXGeometryImport.cpp 493-510: read and push the indices of a hole. -/
def loadHole (owners : List (Option Nat)) (st : TessState) (n : Node) : Option TessState :=
  (FConv.toInterleaved FConv.toUInt32 0 (n.direct ++ [0]) st.arrays).bind fun as => (masterSize as).map fun k =>
    { st with arrays := as, inputs := pushIndices owners as st.inputs,
              holes := if st.counts.length ∈ st.holes then st.holes else FPoly.insertHole st.counts.length st.holes,
              counts := st.counts ++ [k] }

/-- FAXGeometryImport.cpp 450-476: the text of the face in a `<ph>`, and the elements from the first hole. The error reported for any other element is left out. -/
def holedFace : List Node → Text → Text × List Node
  | [], content => (content, [])
  | c :: cs, content => if c.name = text "p" then holedFace cs c.direct else if c.name = text "h" then (content, c :: cs) else holedFace cs content

/-- FAXGeometryImport.cpp 446-521: one element of the tessellation. -/
def loadTess (owners : List (Option Nat)) (way : Way) (st : TessState) (n : Node) : Option TessState :=
  if n.name = text "p" then loadFace owners way n.direct st
  else if n.name = text "ph" then
    (loadFace owners way (holedFace n.kids []).1 st).bind fun st => (holedFace n.kids []).2.foldlM (loadHole owners) st
  else if n.name = text "extra" then (loadExtra st.extra n).map fun e => { st with extra := e }
  else some st

/-- FCDGeometrySource.h 112: `GetValueCount` of the positions; a NULL source or stride is undefined. -/
def positionCount (ss : List GSource) : Option Nat :=
  (ss.find? fun s => decide (s.type = .position)).bind fun s => if s.stride = 0 then none else some (s.data.length / s.stride)

/-- FAXGeometryImport.cpp 530-546: the number of primitives read. -/
def loadedCount (P : GSet) : Option Nat :=
  if P.prim = .lines then ((List.range P.counts.length).mapM fun i => (FPoly.faceVertexCount P.polys i).map (· / 2)).map List.sum
  else some (FPoly.faceCount P.polys)

/-- What loading a polygon set gives: the sources, whose types are set, the polygon set, the status, and whether an error has been reported at the level of errors. -/
structure SetResult where
  sources : List GSource
  set : GSet
  status : Bool
  error : Bool

/-- FAXGeometryImport.cpp 255-267: how the faces are counted; `none` if the name is not one of a polygon set. -/
def wayOf (prim : Prim) (name : Text) : Option Way :=
  if prim = .polygons then
    (if name = text "polygons" then some .polygons else if name = text "triangles" then some .triangles else if name = text "polylist" then some .polylist else none)
  else some .polygons

/-- FAXGeometryImport.cpp 376-417: the `<vcount>`: the face-vertex counts, and whether loading goes on, or the status returned. -/
def loadCounts (ss : List GSource) (way : Way) (expected : Nat) (n : Node) : Option (Except (Bool × List Nat) (List Nat)) :=
  if expected = 0 then some (.ok [])
  else match n.child (text "vcount"), way with
    | none, .polylist => some (.error (true, []))
    | none, _ => some (.ok [])
    | some v, .polylist => (FConv.toList FConv.toUInt32 0 (v.direct ++ [0]) []).bind fun cs => (positionCount ss).map fun p => if cs.any fun c => decide (p < c) then .error (false, cs) else .ok cs
    | some _, _ => some (.error (true, []))

/-- FAXGeometryImport.cpp 419-554: the tessellation. -/
def loadBody (st : HeadState) (rest : List Node) (P : GSet) (way : Way) (expected : Nat) (counts : List Nat) : Option SetResult :=
  (rest.foldlM (loadTess st.owners way) ⟨st.inputs, counts, [], st.owners.map fun o => o.map fun _ => [], st.extra⟩).bind fun t =>
    let P := { P with inputs := t.inputs, counts := t.counts, holes := t.holes, extra := t.extra }
    (loadedCount P).map fun k => ⟨st.sources, P, true, decide (expected ≠ k)⟩

/-- FAXGeometryImport.cpp 246-555: `LoadGeometryPolygons`, for a new polygon set with the inputs `ins`. The status of extras is left out. -/
def loadSet (ov : Ov) (ss : List GSource) (vertex : List Nat) (prim : Prim) (ins : List GInput) (n : Node) : Option SetResult :=
  (countOf n).bind fun expected =>
  match wayOf prim n.name with
  | none => some ⟨ss, ⟨prim, ins, [], [], [], FExtra.newExtra⟩, false, false⟩
  | some way =>
    (prop n (text "material")).bind fun material =>
    (loadHead ov vertex n.kids ⟨ss, ins, [], false, FExtra.newExtra⟩).bind fun r =>
      let P : GSet := ⟨prim, r.1.inputs, [], [], material, r.1.extra⟩
      if r.2 = [] ∨ r.1.hasVertex = false then some ⟨r.1.sources, P, true, true⟩
      else (loadCounts r.1.sources way expected n).bind fun c => match c with
        | .error (status, cs) => some ⟨r.1.sources, { P with counts := cs }, status, true⟩
        | .ok cs => loadBody r.1 r.2 P way expected cs

/-- FAXGeometryImport.cpp 129-144: the kind of primitives of an element; `none` if it is not a polygon set. -/
def primOf (name : Text) : Option Prim :=
  if name = text "polygons" ∨ name = text "triangles" ∨ name = text "polylist" then some .polygons
  else if name = text "lines" then some .lines
  else if name = text "linestrips" then some .lineStrips
  else if name = text "trifans" then some .triangleFans
  else if name = text "tristrips" then some .triangleStrips
  else if name = text "points" then some .points
  else none

/-- FCDGeometryMesh.cpp 119-134: the inputs of a new polygon set. -/
def vertexInputs (vertex : List Nat) : List GInput := vertex.map fun s => newInput s 0

end Verif.FArc
