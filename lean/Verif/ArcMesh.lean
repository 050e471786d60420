import Verif.ArcPoly

/-!
# Model of the saving and loading of the sources of a geometry and of meshes (FColladaPlugins/FArchiveXML/FAXGeometryExport.cpp 23-128, FAXGeometryImport.cpp 22-190)

The ids are the texts in the file: making them unique in the document is C28 and C69. Animations of the values of sources are left out, and loading is not cancelled. `none` is undefined behaviour.
-/

namespace Verif.FArc

open Verif.FEff (Text text)
open Verif.FConv (Ov)
open Verif.FPoly (Prim)
open Verif.Enum (GeometryInput)

/-! ## Saving -/

/-- FUDaeEnum.cpp 23: `FUDaeAccessor::XYZW`. -/
def xyzwNames : List Text := [text "X", text "Y", text "Z", text "W"]
/-- FUDaeEnum.cpp 24: `FUDaeAccessor::RGBA`. -/
def rgbaNames : List Text := [text "R", text "G", text "B", text "A"]
/-- FUDaeEnum.cpp 25: `FUDaeAccessor::STPQ`. -/
def stpqNames : List Text := [text "S", text "T", text "P", text "Q"]

/-- FAXGeometryExport.cpp 32-49: whether a source of this type is written, and the names of the parameters, which may be NULL. -/
def accessorNames : GeometryInput → Option (Option (List Text))
  | .position | .normal | .geotangent | .geobinormal | .textangent | .texbinormal | .uv => some (some xyzwNames)
  | .texcoord => some (some stpqNames)
  | .color => some (some rgbaNames)
  | .extra | .unknown => some none
  | .vertex | .pointSize | .pointRotation => none

/-- FAXEntityExport.cpp 195-213: `WriteTechniquesFCDExtra`, on the children of the element: the techniques of all types. -/
def writeAllTechs (ks : List Node) (e : FExtra.Extra) : List Node := (e.flatMap (·.techs)).foldl writeTech ks

/-- FAXGeometryExport.cpp 23-66: `WriteGeometrySource`. -/
def writeSource (fmt : ℚ → Text) (s : GSource) : Option Node :=
  (accessorNames s.type).map fun ps =>
    let n := sourceFloats fmt s.id s.data s.stride ps
    .elem n.name (n.attrs ++ if s.name = [] then [] else [(text "name", s.name)]) n.direct (writeAllTechs n.kids s.extra)

/-- FAXGeometryExport.cpp 95-97: the input of a per-vertex source. -/
def vertexNode (M : GMesh) (s : Nat) : List Node := match M.sources[s]? with
  | some src => inputNode src.id (text src.type.toString) (-1) (-1)
  | none => []

/-- FAXGeometryExport.cpp 98-103: the set of a per-vertex source, as given by the first polygon set; `none` if it has none. -/
def vertexSet (M : GMesh) (s : Nat) : Option Int :=
  (M.sets.head?).bind fun P => (findInput P.inputs s).bind fun i => (P.inputs[i]?).bind fun x => if x.set = -1 then none else some x.set

/-- FAXGeometryExport.cpp 103-112: the input with the set. -/
def vertexSetNode (M : GMesh) (s : Nat) : List Node := match M.sources[s]?, vertexSet M s with
  | some src, some set => inputNode src.id (text src.type.toString) (-1) set
  | _, _ => []

/-- FAXGeometryExport.cpp 90-119: the element `<vertices>`. -/
def writeVertices (M : GMesh) : Node :=
  .elem (text "vertices") [(text "id", M.id ++ text "-vertices")] []
    (M.vertex.flatMap (vertexNode M) ++
      if M.vertex.any fun s => (vertexSet M s).isSome then
        [.elem (text "extra") [] [] [.elem (text "technique") [(text "profile", text "FCOLLADA")] [] (M.vertex.flatMap (vertexSetNode M))]]
      else [])

/-- FAXGeometryExport.cpp 68-128: `WriteGeometryMesh`. -/
def writeMesh (fmt : ℚ → Text) (M : GMesh) : Option Node :=
  if M.convex = true ∧ M.hull ≠ [] then some (.elem (text "convex_mesh") [(text "convex_hull_of", M.hull)] [] [])
  else (M.sets.mapM (writeSet M)).map fun ps => .elem (text "mesh") [] [] (M.sources.filterMap (writeSource fmt) ++ [writeVertices M] ++ ps)

/-! ## Loading -/

/-- FAXGeometryImport.cpp 22-57: `LoadGeometrySource`, of a new source. -/
def loadSource (ov : Ov) (n : Node) : Option GSource :=
  (prop n (text "name")).bind fun name => (prop n (text "id")).bind fun id => (readFloats ov n []).bind fun r =>
    (loadExtra FExtra.newExtra n).bind fun e => (FExtra.findType e []).bind fun i => (e[i]?).map fun t =>
      ⟨id, name, .unknown, r.1, r.2, if t.techs.length = 0 then FExtra.newExtra else e⟩

/-- The sources, the per-vertex sources and whether there are positions. -/
structure VertexState where
  sources : List GSource
  vertex : List Nat
  positions : Bool

/-- FCDGeometryMesh.cpp 174-193: `AddVertexSource`, when there are no polygon sets. -/
def addVertexSource (vertex : List Nat) (s : Nat) : List Nat := if s ∈ vertex then vertex else vertex ++ [s]

/-- FAXGeometryImport.cpp 95-113: the inputs of `<vertices>`; the flag is false if a source was not found, which ends the load. -/
def loadVertices : List Node → VertexState → Option (VertexState × Bool)
  | [], st => some (st, true)
  | n :: ns, st => (prop n (text "semantic")).bind fun sem =>
    if semanticOf sem = .vertex then loadVertices ns st
    else (prop n (text "source")).bind fun id => match findSource st.sources id with
      | none => some (st, false)
      | some s => loadVertices ns ⟨setType st.sources s (semanticOf sem), addVertexSource st.vertex s, st.positions || decide (semanticOf sem = .position)⟩

/-- The sources, the polygon sets, the status, and whether an error has been reported for a polygon set. -/
structure MeshState where
  sources : List GSource
  sets : List GSet
  status : Bool
  error : Bool

/-- FAXGeometryImport.cpp 125-148: one child of the mesh. -/
def loadChild (ov : Ov) (vertex : List Nat) (st : MeshState) (n : Node) : Option MeshState := match primOf n.name with
  | none => some st
  | some prim => (loadSet ov st.sources vertex prim (vertexInputs vertex) n).map fun r => ⟨r.sources, st.sets ++ [r.set], st.status && r.status, st.error || r.error⟩

/-- FAXGeometryImport.cpp 179-182: the set of the input of a source. -/
def putSet (s : Nat) (set : Int) (P : GSet) : GSet := match findInput P.inputs s with
  | some i => { P with inputs := P.inputs.modify i fun x => { x with set := set } }
  | none => P

/-- FAXGeometryImport.cpp 166-184: one input with a set. -/
def loadVertexSet (ov : Ov) (ss : List GSource) (vertex : List Nat) (sets : List GSet) (n : Node) : Option (List GSet) :=
  (prop n (text "source")).bind fun id => if id = [] then some sets
    else (prop n (text "set")).bind fun t => if t = [] then some sets
    else (readInt ov t).map fun set => match findSource ss (stripHash id) with
      | none => sets
      | some s => if s ∈ vertex then sets.map (putSet s set) else sets

/-- FAXGeometryImport.cpp 157-162: the inputs with sets. -/
def vertexSetNodes (vertices : Node) : List Node := match vertices.child (text "extra") with
  | none => []
  | some x => match (findTech x.kids (text "FCOLLADA")).bind fun i => x.kids[i]? with
    | none => []
    | some t => t.children (text "input")

/-- What loading a mesh gives: the mesh, the status, and whether an error has been reported for a polygon set. -/
structure MeshResult where
  mesh : GMesh
  status : Bool
  error : Bool

/-- FAXGeometryImport.cpp 59-190: `LoadGeometryMesh` into a new mesh of the geometry `id`. `warn` and `err`: reports at the level of warnings and of errors are fatal (FUError.cpp 44). A mesh without `<vertices>` is undefined
(line 116: `verticesNode->line`). -/
def loadMesh (ov : Ov) (warn err : Bool) (id : Text) (convex : Bool) (n : Node) : Option MeshResult :=
  (if convex then prop n (text "convex_hull_of") else some []).bind fun hull =>
  if convex = true ∧ hull ≠ [] then some ⟨⟨id, [], [], [], convex, hull⟩, true, false⟩
  else ((n.children (text "source")).mapM (loadSource ov)).bind fun ss =>
  (n.child (text "vertices")).bind fun v =>
  (loadVertices (v.children (text "input")) ⟨ss, [], false⟩).bind fun r =>
  if r.2 = false then some ⟨⟨id, r.1.sources, r.1.vertex, [], convex, hull⟩, err, false⟩
  else (n.kids.foldlM (loadChild ov r.1.vertex) ⟨r.1.sources, [], !(warn && (!r.1.positions || r.1.vertex.isEmpty)), false⟩).bind fun st =>
  ((vertexSetNodes v).foldlM (loadVertexSet ov st.sources r.1.vertex) st.sets).map fun sets =>
    ⟨⟨id, st.sources, r.1.vertex, sets, convex, hull⟩, st.status && !(warn && st.sets.isEmpty), st.error⟩

/-- FAXGeometryImport.cpp 193-244: the mesh of a geometry: the first child that is a mesh; a spline is not modelled here. -/
def loadMeshOf (ov : Ov) (warn err : Bool) (id : Text) (n : Node) : Option MeshResult :=
  if n.name = text "mesh" then loadMesh ov warn err id false n else if n.name = text "convex_mesh" then loadMesh ov warn err id true n else none

end Verif.FArc
