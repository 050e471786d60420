import Verif.Xform
import Verif.Iter

/-!
# Model of the change of the up-axis and of the length unit (FCDocument/FCDocumentTools.cpp)

Numbers are real numbers. Animation curves are in StdAnim.lean. The documents that external references lead to are converted by the same code, one
after the other, and are left out; so are the flags of modified objects.
-/

namespace Verif.FStd

open Verif.Geo Verif.FXform

noncomputable section

/-- FCDocumentTools.cpp 48: `Axis`. -/
inductive Axis where
  | x | y | z | unknown
deriving DecidableEq

/-- FCDocumentTools.cpp 49-55: `ConvertVector`. -/
def convertVector (v : V3 ℝ) : Axis :=
  if equivalent3 v ⟨1, 0, 0⟩ then .x
  else if equivalent3 v ⟨0, 1, 0⟩ then .y
  else if equivalent3 v ⟨0, 0, 1⟩ then .z
  else .unknown

/-- FCDocumentTools.cpp 154-160: the conversion functions. The first letter is the wanted axis, the second one the current axis. -/
inductive Fn where
  | identity | xToY | xToZ | yToX | yToZ | zToX | zToY
deriving DecidableEq

/-- FCDocumentTools.cpp 138-152: `PrepareFunctor`. -/
def prepare (target current : Axis) : Fn :=
  if target = .unknown ∨ current = .unknown ∨ target = current then .identity
  else match target with
    | .x => if current = .y then .xToY else .xToZ
    | .y => if current = .x then .yToX else .yToZ
    | .z => if current = .x then .zToX else .zToY
    | .unknown => .identity

/-- FCDocumentTools.cpp 154-160: what the functions do with the components; the code works in place, with one variable for the old value. -/
def Fn.apply (sign : ℝ) (d : V3 ℝ) : Fn → V3 ℝ
  | .identity => d
  | .xToY => ⟨d.y, sign * d.x, d.z⟩
  | .xToZ => ⟨d.y, d.z, d.x⟩
  | .yToX => ⟨sign * d.y, d.x, d.z⟩
  | .yToZ => ⟨d.x, d.z, sign * d.y⟩
  | .zToX => ⟨d.z, d.x, d.y⟩
  | .zToY => ⟨d.x, sign * d.z, d.y⟩

/-- The two functors after `SetCurrent`: the function for the up-axis and the factor for lengths. -/
structure Conv where
  fn : Fn
  factor : ℝ

/-- FCDocumentTools.cpp 135: `operator()` of the up-axis functor, for vectors. -/
def Conv.turn (c : Conv) (v : V3 ℝ) : V3 ℝ := c.fn.apply (-1) v

/-- FCDocumentTools.cpp 135: `operator()` of the up-axis functor, for scales. -/
def Conv.turnScale (c : Conv) (v : V3 ℝ) : V3 ℝ := c.fn.apply 1 v

/-- FCDocumentTools.cpp 176: `operator()` of the length functor, for vectors. -/
def Conv.lengthen (c : Conv) (v : V3 ℝ) : V3 ℝ := v.smul c.factor

/-- FCDocumentTools.cpp 73: `HasConversion` of the up-axis functor. -/
def Conv.hasAxis (c : Conv) : Bool := decide (c.fn ≠ .identity)

/-- FCDocumentTools.cpp 172: `HasConversion` of the length functor. -/
def Conv.hasLength (c : Conv) : Bool := !equivalent c.factor 1

/-- FCDocumentTools.cpp 173: `SetCurrent` of the length functor. -/
def unitFactor (current target : ℝ) : ℝ := if current ≤ 0 then 1 else current / target

/-- FCDAsset.h 64-76: an asset; a value whose flag is not set is `none`. -/
structure Asset where
  unit : Option ℝ
  up : Option (V3 ℝ)

/-- FCDocumentTools.cpp 234-248: `GetAssetFunctors`, given the assets of the entity and the asset of the library. -/
def assetFunctors (target : Axis) (targetUnit : ℝ) (assets : List Asset) (library : Option Asset) : Conv :=
  let all := assets ++ library.toList
  { fn := prepare target (convertVector ((all.findSome? Asset.up).getD ⟨0, 0, 0⟩)),
    factor := unitFactor ((all.findSome? Asset.unit).getD (-1)) targetUnit }

/-- FCDEntity.cpp 104-108: `GetHierarchicalAssets` of an entity with the asset `own` in a document with the asset `doc`. -/
def entityAssets (own : Option Asset) (doc : Asset) : List Asset :=
  match own with
  | some a => [a]
  | none => [doc]

/-- FCDocumentTools.cpp 250-258: `ResetAsset`. -/
def resetAsset (own : Option Asset) : Option Asset := own.map fun _ => ⟨none, none⟩

/-- FCDocumentTools.cpp 389-403, 405-416: `CONVERT_MAT44` and `CONVERT_MAT44_NONANIMATABLE`, for the elements of the matrix. -/
def convertMatrix (c : Conv) (m : M44 ℝ) : M44 ℝ :=
  let r0 := c.turn ⟨m.m00, m.m01, m.m02⟩
  let r1 := c.turn ⟨m.m10, m.m11, m.m12⟩
  let r2 := c.turn ⟨m.m20, m.m21, m.m22⟩
  let v0 := c.turn ⟨r0.x, r1.x, r2.x⟩
  let v1 := c.turn ⟨r0.y, r1.y, r2.y⟩
  let v2 := c.turn ⟨r0.z, r1.z, r2.z⟩
  let t := c.lengthen (c.turn ⟨m.m30, m.m31, m.m32⟩)
  ⟨v0.x, v1.x, v2.x, m.m03, v0.y, v1.y, v2.y, m.m13, v0.z, v1.z, v2.z, m.m23, t.x, t.y, t.z, m.m33⟩

/-- FCDocumentTools.cpp 494-499: the conversion of a transform. -/
def convertValue (c : Conv) : Value → Value
  | .translation t => .translation (c.lengthen (c.turn t))
  | .rotation a x => .rotation (c.turn a) x
  | .scale s => .scale (c.turnScale s)
  | .skew r a x => .skew (c.turn r) (c.turn a) x
  | .lookAt p t u => .lookAt (c.lengthen (c.turn p)) (c.lengthen (c.turn t)) (c.turn u)
  | .matrix m => .matrix (convertMatrix c m)

/-- FCDocumentTools.cpp 488-501: the conversion of the transforms of a node. -/
def convertTransforms (c : Conv) (ts : List Transform) : List Transform :=
  if c.hasLength || c.hasAxis then ts.map fun t => { t with value := convertValue c t.value } else ts

/-! ## Pivots -/

/-- A transform of a node, and whether it has animation curves. -/
abbrev Entry := Transform × Bool

/-- FCDocumentTools.cpp 75-89: `GetLastTransformForPivot`: the axis and the angle of the last transform, if it is a rotation without curves. -/
def lastRotation (ts : List Entry) : Option (V3 ℝ × ℝ) :=
  match ts.getLast? with
  | some (⟨_, .rotation a x⟩, false) => some (a, x)
  | _ => none

/-- FCDocumentTools.cpp 102-105: a new rotation at the end. -/
def addRotation (ts : List Entry) (axis : V3 ℝ) (angle : ℝ) : List Entry := ts ++ [(⟨[], .rotation axis angle⟩, false)]

/-- FCDocumentTools.cpp 91-107: `SmartAddRotationPivot`. The removed transform is the last one. -/
def smartAdd (ts : List Entry) (axis : V3 ℝ) (angle : ℝ) : List Entry :=
  match lastRotation ts with
  | some (a, x) => if equivalent3 a axis && equivalent x (-angle) then ts.dropLast else addRotation ts axis angle
  | none => addRotation ts axis angle

/-- FCDocumentTools.cpp 114-122: out of the current up-axis. -/
def pivotOut (current : Axis) (rollOnly : Bool) (ts : List Entry) : List Entry :=
  if current = .x ∧ rollOnly = false then smartAdd ts ⟨0, 0, 1⟩ 90
  else if current = .z then smartAdd ts (if rollOnly then ⟨0, 0, 1⟩ else ⟨1, 0, 0⟩) (if rollOnly then 90 else -90)
  else ts

/-- FCDocumentTools.cpp 124-132: into the wanted up-axis. -/
def pivotIn (target : Axis) (rollOnly : Bool) (ts : List Entry) : List Entry :=
  if target = .x ∧ rollOnly = false then smartAdd ts ⟨0, 0, 1⟩ (-90)
  else if target = .z then smartAdd ts (if rollOnly then ⟨0, 0, 1⟩ else ⟨1, 0, 0⟩) (if rollOnly then -90 else 90)
  else ts

/-- FCDocumentTools.cpp 109-133: `SetPivotTransform`. -/
def setPivot (target current : Axis) (rollOnly : Bool) (ts : List Entry) : List Entry :=
  if prepare target current = .identity then ts else pivotIn target rollOnly (pivotOut current rollOnly ts)

/-! ## The scene nodes -/

/-- The transforms and the asset of the scene nodes. -/
structure Nodes where
  transforms : Nat → List Transform
  asset : Nat → Option Asset

/-- FCDSceneNode.cpp 236-245: `GetHierarchicalAssets` of a node, without the asset of the document; `first` gives the first parents. At most `n`
nodes are visited. -/
def nodeAssets (first : Nat → Option Nat) (asset : Nat → Option Asset) : Nat → Nat → Option (List Asset)
  | 0, _ => none
  | n + 1, x =>
    match first x with
    | none => some (asset x).toList
    | some p => (nodeAssets first asset n p).map fun l => (asset x).toList ++ l

/-- The wanted up-axis and unit, the asset of the document and that of the library of visual scenes. -/
structure Job where
  target : Axis
  unit : ℝ
  doc : Asset
  library : Option Asset

/-- FCDocumentTools.cpp 487-501, 549: what is done with one node, without the pivots. -/
def convertNode (j : Job) (first : Nat → Option Nat) (n : Nat) (s : Nodes) (x : Nat) : Option Nodes :=
  (nodeAssets first s.asset n x).bind fun l =>
  some { transforms := Function.update s.transforms x (convertTransforms (assetFunctors j.target j.unit (l ++ [j.doc]) j.library) (s.transforms x)),
         asset := Function.update s.asset x (resetAsset (s.asset x)) }

/-- FCDocumentTools.cpp 484-550: the loop over the nodes of the iterators. -/
def convertNodes (j : Job) (first : Nat → Option Nat) (n : Nat) : List Nat → Nodes → Option Nodes
  | [], s => some s
  | x :: xs, s => (convertNode j first n s x).bind (convertNodes j first n xs)

/-- FCDocumentTools.cpp 186-193, 204-231: the nodes in the order of `VisualSceneNodeIterator`: the last scene first, each in pre-order over pure
children. -/
def visitOrder (n : Nat) (G : FIter.Graph) (scenes : List Nat) : Option (List Nat) :=
  (scenes.reverse.mapM fun r => FIter.depthFirst n G false true r).map List.flatten

/-- FCDocumentTools.cpp 483-550: the conversion of the scene nodes of a document. -/
def convertScene (j : Job) (G : FIter.Graph) (n : Nat) (scenes : List Nat) (s : Nodes) : Option Nodes :=
  (visitOrder n G scenes).bind fun order => convertNodes j G.parent0 n order s

/-! ## Geometries and controllers -/

/-- FCDocumentTools.cpp 604-612, 634-642: the loop over the values of a source: the first three numbers of each value are turned. -/
def turnValues (c : Conv) (stride : Nat) : Nat → Nat → List ℝ → Option (List ℝ)
  | 0, _, data => some data
  | n + 1, at_, data =>
    (data[at_]?).bind fun x => (data[at_ + 1]?).bind fun y => (data[at_ + 2]?).bind fun z =>
    let v := c.turn ⟨x, y, z⟩
    turnValues c stride n (at_ + stride) (((data.set at_ v.x).set (at_ + 1) v.y).set (at_ + 2) v.z)

/-- The kinds of sources the function distinguishes (FCDocumentTools.cpp 599-655). -/
inductive Source where
  | position | normal | other
deriving DecidableEq

/-- FCDocumentTools.cpp 594-655: the data of a source. A stride of zero is a division by zero (FCDGeometrySource.h 112). -/
def convertSource (c : Conv) (kind : Source) (stride : Nat) (data : List ℝ) : Option (List ℝ) :=
  if stride = 0 then none
  else if data.length / stride = 0 then some data
  else match kind with
    | .position =>
      (if c.hasAxis && decide (stride ≥ 3) then turnValues c stride (data.length / stride) 0 data else some data).map fun d =>
      if c.hasLength then d.mapIdx fun i x => if i < data.length / stride * stride then x * c.factor else x else d
    | .normal => if c.hasAxis && decide (stride ≥ 3) then turnValues c stride (data.length / stride) 0 data else some data
    | .other => some data

/-- FCDocumentTools.cpp 668: a control vertex of a spline. -/
def convertVertex (c : Conv) (v : V3 ℝ) : V3 ℝ := c.lengthen (c.turn v)

/-- FCDocumentTools.cpp 569-571: the inverse of the bind-pose of a joint. -/
def convertBindPose (c : Conv) (inverse : M44 ℝ) : M44 ℝ := (convertMatrix c inverse.inverted).inverted

/-! ## The wanted values -/

/-- FCDocumentTools.cpp 424-428: the wanted unit. -/
def wantedUnit (unit : ℝ) (doc : Asset) : ℝ := if equivalent unit 0 || decide (unit < 0) then doc.unit.getD 1 else unit

/-- FCDocumentTools.cpp 429-435: the wanted up-axis. -/
def wantedAxis (up : V3 ℝ) (doc : Asset) : V3 ℝ := if equivalent3 up ⟨0, 0, 0⟩ then doc.up.getD ⟨0, 1, 0⟩ else up

/-! ## The document -/

/-- What is in a geometry: the sources of a mesh, with their strides; the control vertices of the splines; something else. -/
inductive Shape where
  | mesh (sources : List (Source × Nat × List ℝ))
  | splines (vertices : List (List (V3 ℝ)))
  | other

/-- A geometry and its asset. -/
structure Geom where
  asset : Option Asset
  shape : Shape

/-- A skin controller: its asset, the bind-shape matrix and the inverses of the bind-poses of the joints. -/
structure Skin where
  asset : Option Asset
  bindShape : M44 ℝ
  inverses : List (M44 ℝ)

/-- A camera: its asset and the clip planes. -/
structure Camera where
  asset : Option Asset
  nearZ : ℝ
  farZ : ℝ

/-- FCDocumentTools.cpp 586-671: the conversion of a geometry. -/
def convertShape (c : Conv) : Shape → Option Shape
  | .mesh sources => (sources.mapM fun x => (convertSource c x.1 x.2.1 x.2.2).map fun d => (x.1, x.2.1, d)).map .mesh
  | .splines vs => some (.splines (vs.map fun l => l.map (convertVertex c)))
  | .other => some .other

/-- FCDocumentTools.cpp 582-674: what is done with one geometry. -/
def convertGeom (target : Axis) (unit : ℝ) (doc : Asset) (library : Option Asset) (g : Geom) : Option Geom :=
  let c := assetFunctors target unit (entityAssets g.asset doc) library
  (if c.hasLength || c.hasAxis then convertShape c g.shape else some g.shape).map fun s => ⟨resetAsset g.asset, s⟩

/-- FCDocumentTools.cpp 556-575: what is done with one skin controller. -/
def convertSkin (target : Axis) (unit : ℝ) (doc : Asset) (library : Option Asset) (s : Skin) : Skin :=
  let c := assetFunctors target unit (entityAssets s.asset doc) library
  if c.hasLength || c.hasAxis then ⟨resetAsset s.asset, convertMatrix c s.bindShape, s.inverses.map (convertBindPose c)⟩
  else { s with asset := resetAsset s.asset }

/-- FCDocumentTools.cpp 681-688: what is done with one camera. -/
def convertCamera (target : Axis) (unit : ℝ) (doc : Asset) (library : Option Asset) (k : Camera) : Camera :=
  let c := assetFunctors target unit (entityAssets k.asset doc) library
  if c.hasLength then ⟨resetAsset k.asset, k.nearZ * c.factor, k.farZ * c.factor⟩ else { k with asset := resetAsset k.asset }

/-- A document: its asset, the assets of its libraries, and the entities that are converted. -/
structure Doc where
  asset : Asset
  sceneAsset : Option Asset
  skinAsset : Option Asset
  geomAsset : Option Asset
  cameraAsset : Option Asset
  nodes : Nodes
  skins : List Skin
  geoms : List Geom
  cameras : List Camera

/-- FCDocumentTools.cpp 418-702: `StandardizeUpAxisAndLength`, without pivots and animations; `G` is the scene graph, `scenes` are the visual scenes. -/
def standardize (G : FIter.Graph) (scenes : List Nat) (n : Nat) (up : V3 ℝ) (unit : ℝ) (d : Doc) : Option Doc :=
  let u := wantedUnit unit d.asset
  let a := wantedAxis up d.asset
  (convertScene ⟨convertVector a, u, d.asset, d.sceneAsset⟩ G n scenes d.nodes).bind fun nodes =>
  (d.geoms.mapM (convertGeom (convertVector a) u d.asset d.geomAsset)).map fun geoms =>
  { d with
    asset := ⟨some u, some a⟩
    nodes := nodes
    skins := d.skins.map (convertSkin (convertVector a) u d.asset d.skinAsset)
    geoms := geoms
    cameras := d.cameras.map (convertCamera (convertVector a) u d.asset d.cameraAsset) }

end

end Verif.FStd
