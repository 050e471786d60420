import Mathlib.Data.List.Basic

/-!
# Model of polygon sets (FCDocument/FCDGeometryPolygons.cpp, FCDGeometryPolygonsInput.cpp, FCDGeometryPolygonsTools.cpp 36-122)

An input refers to its source through its position only. Sums are not reduced modulo 2^64. `none` as a result is undefined behaviour; `none` as
an index is an index that has not been initialised.
-/

namespace Verif.FPoly

/-- FCDGeometryPolygonsInput.h 55-56: the offset and the indices of an input. -/
structure Input where
  offset : Nat
  indices : List (Option Nat)
deriving DecidableEq

/-- FCDGeometryPolygons.h 58-81: the types of primitives. -/
inductive Prim where
  | lines | lineStrips | polygons | triangleFans | triangleStrips | points
deriving DecidableEq

/-- FCDGeometryPolygons.h 86-96: a polygon set; `total` is the buffered `faceVertexCount`. -/
structure Polys where
  counts : List Nat
  holes : List Nat
  inputs : List Input
  prim : Prim
  total : Nat
deriving DecidableEq

/-- FCDGeometryPolygons.cpp 31-44: a new polygon set. -/
def empty : Polys := ⟨[], [], [], .polygons, 0⟩

/-! ## Inputs -/

/-- FCDGeometryPolygonsInput.h 113: `OwnsIndices`. -/
def owns (x : Input) : Bool := !x.indices.isEmpty

/-- FCDGeometryPolygonsInput.cpp 125-138: `FindIndices`: the position of the input whose list is used for the input at `i`. -/
def findOwner (ins : List Input) (i : Nat) : Nat :=
  match ins[i]? with
  | none => i
  | some x => if owns x then i else (ins.findIdx? fun y => y.offset = x.offset && owns y).getD i

/-- FCDGeometryPolygonsInput.cpp 98-106: `GetIndices`, `GetIndexCount`: the indices of the input at `i`. -/
def indexList (ins : List Input) (i : Nat) : List (Option Nat) := ((ins[findOwner ins i]?).map Input.indices).getD []

/-- A change of the list that `FindIndices` finds for the input at `i`. -/
def upd (ins : List Input) (i : Nat) (f : List (Option Nat) → List (Option Nat)) : List Input :=
  ins.modify (findOwner ins i) fun x => { x with indices := f x.indices }

/-- FMArray.h 258-275: `resize`; new values are not initialised. -/
def resize (count : Nat) (l : List (Option Nat)) : List (Option Nat) := l.take count ++ List.replicate (count - l.length) none

/-- FCDGeometryPolygonsInput.cpp 92-96: `SetIndexCount`. -/
def setIndexCount (ins : List Input) (i count : Nat) : List Input := upd ins i (resize count)

/-- FCDGeometryPolygonsInput.cpp 81-90: `SetIndices`. -/
def setIndices (ins : List Input) (i : Nat) (l : List (Option Nat)) : List Input := upd ins i fun _ => l

/-- FCDGeometryPolygonsInput.cpp 114-117: `AddIndex`. -/
def addIndex (ins : List Input) (i : Nat) (v : Option Nat) : List Input := upd ins i (· ++ [v])

/-! ## Faces and holes -/

/-- FCDGeometryPolygons.cpp 257-265: `Recalculate`. -/
def recalculate (P : Polys) : Polys := { P with total := P.counts.sum }

/-- FCDGeometryPolygons.cpp 67-73: one round of the loop of `AddFace`. -/
def addFaceStep (isNew : Bool) (degree : Nat) (ins : List Input) (i : Nat) : List Input :=
  if isNew = false ∧ ((ins[i]?).map owns).getD false = true then setIndexCount ins i ((indexList ins i).length + degree)
  else if isNew = true ∧ (indexList ins i).length = 0 then setIndexCount ins i degree
  else ins

/-- FCDGeometryPolygons.cpp 58-78: `AddFace`. -/
def addFace (P : Polys) (degree : Nat) : Polys :=
  recalculate { P with counts := P.counts ++ [degree],
                       inputs := (List.range P.inputs.length).foldl (addFaceStep P.counts.isEmpty degree) P.inputs }

/-- FCDGeometryPolygons.cpp 139-142: the loop of `GetHoleCountBefore`: the holes counted and the index. -/
def holeLoop : List Nat → Nat → Nat → Nat
  | [], _, holeCount => holeCount
  | h :: holes, index, holeCount => if h ≤ index then holeLoop holes (index + 1) (holeCount + 1) else holeLoop holes index holeCount

/-- FCDGeometryPolygons.cpp 136-144: `GetHoleCountBefore`. -/
def holeCountBefore (P : Polys) (index : Nat) : Nat := holeLoop P.holes index 0

/-- FCDGeometryPolygons.cpp 150-155: the loop of `GetHoleCount`. -/
def holeRun (holes : List Nat) (size : Nat) : Nat → Nat → Nat
  | 0, _ => 0
  | n + 1, i => if i < size then (if i ∈ holes then holeRun holes size n (i + 1) + 1 else 0) else 0

/-- FCDGeometryPolygons.cpp 147-157: `GetHoleCount`. -/
def holeCount (P : Polys) (index : Nat) : Nat := holeRun P.holes P.counts.length P.counts.length (index + holeCountBefore P index + 1)

/-- FCDGeometryPolygons.h 178, 182: `GetFaceCount`; the difference of unsigned numbers. -/
def faceCount (P : Polys) : Nat :=
  if P.holes.length ≤ P.counts.length then P.counts.length - P.holes.length else P.counts.length + 2 ^ 64 - P.holes.length

/-- FCDGeometryPolygons.cpp 117-133: `GetFaceVertexOffset`. -/
def faceVertexOffset (P : Polys) (index : Nat) : Nat :=
  if index + holeCountBefore P index < P.counts.length then (P.counts.take (index + holeCountBefore P index)).sum else 0

/-- FCDGeometryPolygons.cpp 160-171: `GetFaceVertexCount`; `none` if the iterator leaves the list. -/
def faceVertexCount (P : Polys) (index : Nat) : Option Nat :=
  if index < faceCount P then
    if index + holeCountBefore P index + holeCount P index + 1 ≤ P.counts.length then
      some ((P.counts.drop (index + holeCountBefore P index)).take (holeCount P index + 1)).sum
    else none
  else some 0

/-- FCDGeometryPolygons.cpp 189-192: `IsHoleFaceHole`. -/
def isHole (P : Polys) (index : Nat) : Bool := P.holes.contains index

/-- FCDGeometryPolygons.cpp 199-204: the ordered insertion. -/
def insertHole (index : Nat) : List Nat → List Nat
  | [] => [index]
  | h :: holes => if index < h then index :: h :: holes else h :: insertHole index holes

/-- FCDGeometryPolygons.cpp 194-205: `AddHole`. -/
def addHole (P : Polys) (index : Nat) : Polys := if isHole P index then P else { P with holes := insertHole index P.holes }

/-- FCDGeometryPolygons.cpp 173-181: `AddInput`. -/
def addInput (P : Polys) (offset : Nat) : Polys := { P with inputs := P.inputs ++ [⟨offset, []⟩] }

/-- FCDGeometryPolygons.cpp 99-102: the loop of `RemoveFace`; `n` rounds are left. -/
def shiftLoop (indexCount : Nat) : Nat → Nat → List (Option Nat) → List (Option Nat)
  | 0, _, l => l
  | n + 1, o, l => shiftLoop indexCount n (o + 1) (l.set o (l.getD (o + indexCount) none))

/-- FCDGeometryPolygons.cpp 91-104: one round of the loop over the inputs of `RemoveFace`; `none` if the difference at line 99 wraps around. -/
def removeFaceStep (offset indexCount : Nat) (ins : List Input) (i : Nat) : Option (List Input) :=
  if ((ins[i]?).map owns).getD false = false then some ins
  else if offset < (indexList ins i).length then
    if indexCount ≤ (indexList ins i).length then
      some (setIndexCount (upd ins i (shiftLoop indexCount ((indexList ins i).length - indexCount - offset) offset)) i
        (max offset ((indexList ins i).length - indexCount)))
    else none
  else some ins

/-- FMArray.h 175-203: `erase(first, last)`; a reversed range moves values behind the end of the list, which is `none`. -/
def eraseRange (l : List Nat) (first last : Nat) : Option (List Nat) :=
  if first < l.length ∧ 0 < last ∧ last ≤ l.length then
    if first ≤ last then some (l.take first ++ l.drop last) else none
  else some l

/-- FCDGeometryPolygons.cpp 81-114: `RemoveFace`. Line 110 passes a length where `erase` expects the end of the range. -/
def removeFace (P : Polys) (index : Nat) : Option Polys :=
  if index < faceCount P then
    (faceVertexCount P index).bind fun indexCount =>
    ((List.range P.inputs.length).foldlM (removeFaceStep (faceVertexOffset P index) indexCount) P.inputs).bind fun ins =>
    (eraseRange P.counts (index + holeCountBefore P index) (holeCount P index + 1)).bind fun counts =>
    some (recalculate { P with counts := counts, inputs := ins })
  else some P

/-! ## Triangulation -/

/-- FCDGeometryPolygonsTools.cpp 48-58: the loop that takes the indices away from the inputs: the inputs, and the owners with their old indices. -/
def triStart : List Nat → List Input → List (Nat × List (Option Nat)) → List Input × List (Nat × List (Option Nat))
  | [], ins, owners => (ins, owners)
  | i :: rest, ins, owners =>
    if (indexList ins i).length = 0 then triStart rest ins owners
    else triStart rest (setIndexCount ins i 0) (owners ++ [(i, indexList ins i)])

/-- FCDGeometryPolygonsTools.cpp 76-83, 93-110: the corners of one triangle, for all lists of indices. -/
def addTriangle (t : Nat × Nat × Nat) : List (Nat × List (Option Nat)) → List Input → Option (List Input)
  | [], ins => some ins
  | (i, old) :: owners, ins =>
    (old[t.1]?).bind fun x => (old[t.2.1]?).bind fun y => (old[t.2.2]?).bind fun z =>
    addTriangle t owners (addIndex (addIndex (addIndex ins i x) i y) i z)

/-- FCDGeometryPolygonsTools.cpp 70-113: the positions of the corners of a triangle in the old lists. -/
def corners (prim : Prim) (oldOffset triangleIndex : Nat) : Nat × Nat × Nat :=
  if prim = .triangleStrips then
    if triangleIndex % 2 = 0 then (oldOffset + triangleIndex, oldOffset + triangleIndex + 1, oldOffset + triangleIndex + 2)
    else (oldOffset + triangleIndex, oldOffset + triangleIndex + 2, oldOffset + triangleIndex + 1)
  else (oldOffset, oldOffset + triangleIndex + 1, oldOffset + triangleIndex + 2)

/-- FCDGeometryPolygonsTools.cpp 74-85, 91-112: the triangles of one face, `n` to go. -/
def triFace (prim : Prim) (oldOffset : Nat) (owners : List (Nat × List (Option Nat))) : Nat → Nat → List Input × List Nat → Option (List Input × List Nat)
  | 0, _, s => some s
  | n + 1, triangleIndex, s =>
    (addTriangle (corners prim oldOffset triangleIndex) owners s.1).bind fun ins =>
    triFace prim oldOffset owners n (triangleIndex + 1) (ins, s.2 ++ [3])

/-- FCDGeometryPolygonsTools.cpp 64-116: the loop over the old faces. -/
def triLoop (prim : Prim) (holes : List Nat) (owners : List (Nat × List (Option Nat))) : List Nat → Nat → Nat → List Input × List Nat →
    Option (List Input × List Nat)
  | [], _, _, s => some s
  | c :: counts, oldFaceIndex, oldOffset, s =>
    (if ¬ holes.contains oldFaceIndex ∧ 3 ≤ c then triFace prim oldOffset owners (c - 2) 0 s else some s).bind fun s =>
    triLoop prim holes owners counts (oldFaceIndex + 1) (oldOffset + c) s

/-- FCDGeometryPolygonsTools.cpp 36-122: `Triangulate`, with the recalculation. -/
def triangulate (P : Polys) : Option Polys :=
  if P.prim = .lineStrips ∨ P.prim = .lines ∨ P.prim = .points then some P
  else
    (triLoop P.prim P.holes (triStart (List.range P.inputs.length) P.inputs []).2 P.counts 0 0
      ((triStart (List.range P.inputs.length) P.inputs []).1, [])).bind fun s =>
    some (recalculate { P with counts := s.2, inputs := s.1, prim := .polygons, holes := [] })

/-! ## Meshes -/

/-- FCDGeometryMesh.cpp 221-232: the loop of `Recalculate`: for each polygon set the face, hole and face-vertex offsets, then the totals. -/
def meshLoop : List Polys → Nat → Nat → Nat → List (Nat × Nat × Nat) × Nat × Nat × Nat
  | [], f, h, v => ([], f, h, v)
  | P :: rest, f, h, v =>
    let r := meshLoop rest (f + faceCount (recalculate P)) (h + (recalculate P).holes.length) (v + (recalculate P).total)
    ((f, h, v) :: r.1, r.2)

end Verif.FPoly
