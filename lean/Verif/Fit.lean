import Verif.Unify

/-!
# Model of the splitting of polygon sets (FCDocument/FCDGeometryPolygonsTools.cpp 1087-1181)

The sets are those of `Verif.Poly` with the sources of their inputs (`Verif.Unify`) and their material semantic. The function appends the new sets to the list of the
mesh and reads and changes only the set it looks at; here it returns the changed set and the new ones, and the mesh is put together at the end. `none` is undefined
behaviour, or a `while` loop that needs more rounds than the fuel `n`. Input set numbers, the flags of changed objects and the counters of the mesh are left out.
-/

namespace Verif.FFit

open Verif.FPoly Verif.FUnify

/-- FCDGeometryPolygons.h 86-97: a polygon set with its material semantic. -/
structure PSet where
  set : MSet
  material : List Int
deriving DecidableEq

/-- FCDGeometryPolygonsTools.cpp 1107-1112, 1128-1134: the number of faces that fit, and of their corners; 32-bit sums. -/
def fits (maximum : Nat) : List Nat → Nat → Nat × Nat
  | [], acc => (0, acc)
  | c :: cs, acc =>
    if maximum < (acc + c) % 2 ^ 32 then (0, acc)
    else ((fits maximum cs ((acc + c) % 2 ^ 32)).1 + 1, (fits maximum cs ((acc + c) % 2 ^ 32)).2)

/-- FCDGeometryMesh.cpp 119-129: `AddPolygons`: a new set, with an input at offset 0 for each per-vertex source. -/
def newSet (vertexSources : List Nat) : MSet := ⟨{ empty with inputs := vertexSources.map fun _ => ⟨0, []⟩ }, vertexSources⟩

/-- FCDGeometryPolygonsTools.cpp 1151-1156: the indices `start` to `start + len` of the input `j` of `S` are copied to the input `i` of `C` if that has none.
`none` if the input `j` has fewer indices. -/
def copyIndices (S : MSet) (j start len : Nat) (C : MSet) (i : Nat) : Option MSet :=
  if (indexList C.polys.inputs i).length = 0 then
    if start + len ≤ (indexList S.polys.inputs j).length then
      some { C with polys := { C.polys with inputs := setIndices C.polys.inputs i (((indexList S.polys.inputs j).drop start).take len) } }
    else none
  else some C

/-- FCDGeometryPolygonsTools.cpp 1143-1156: one input; the per-vertex sources have their inputs already. -/
def copyInput (vertexSources : List Nat) (S : MSet) (start len : Nat) (C : MSet) (j : Nat) : Option MSet :=
  match S.srcs[j]?, S.polys.inputs[j]? with
  | some d, some x =>
    if d ∈ vertexSources then
      match C.srcs.idxOf? d with
      | some i => copyIndices S j start len C i
      | none => some C
    else copyIndices S j start len ⟨addInput C.polys x.offset, C.srcs ++ [d]⟩ C.srcs.length
  | _, _ => none

/-- The variables of the `while` loop. -/
structure State where
  copies : List PSet
  faceStart : Nat
  faceEnd : Nat
  start : Nat
  stop : Nat
deriving DecidableEq

/-- FCDGeometryPolygonsTools.cpp 1123-1165: one round; the assertions 1137-1138 leave the new set as it is. -/
def round (vertexSources : List Nat) (maximum : Nat) (S : PSet) (t : State) : Option State :=
  let r := fits maximum (S.set.polys.counts.drop t.faceEnd) 0
  let faceEnd := t.faceEnd + r.1
  let stop := t.stop + r.2
  if t.start < stop ∧ t.faceStart < faceEnd then
    ((List.range S.set.polys.inputs.length).foldlM (copyInput vertexSources S.set t.start (stop - t.start)) (newSet vertexSources)).map fun C =>
      ⟨t.copies ++ [⟨{ C with polys := { C.polys with counts := (S.set.polys.counts.drop t.faceStart).take (faceEnd - t.faceStart) } }, S.material⟩],
        faceEnd, faceEnd, stop, stop⟩
  else some { t with copies := t.copies ++ [⟨newSet vertexSources, S.material⟩], faceEnd := faceEnd, stop := stop }

/-- FCDGeometryPolygonsTools.cpp 1121-1166: the loop. -/
def loop (vertexSources : List Nat) (maximum : Nat) (S : PSet) : Nat → State → Option State
  | 0, _ => none
  | n + 1, t =>
    if t.faceEnd < S.set.polys.counts.length then (round vertexSources maximum S t).bind (loop vertexSources maximum S n) else some t

/-- FCDGeometryPolygonsTools.cpp 1171-1175: the indices of the input `i` are cut off. -/
def cutStep (count : Nat) (ins : List Input) (i : Nat) : List Input :=
  if ((ins[i]?).map owns).getD false = true then setIndexCount ins i count else ins

/-- FCDGeometryPolygonsTools.cpp 1168-1177: the faces that were moved and their indices are removed. -/
def cutSet (faces count : Nat) (S : PSet) : PSet :=
  { S with set := { S.set with polys := { S.set.polys with
      counts := S.set.polys.counts.take faces
      inputs := (List.range S.set.polys.inputs.length).foldl (cutStep count) S.set.polys.inputs } } }

/-- FCDGeometryPolygonsTools.cpp 1098-1177: one set: the set and the new sets. -/
def fitSet (vertexSources : List Nat) (maximum n : Nat) (S : PSet) : Option (PSet × List PSet) :=
  if S.set.polys.prim = .points then some (S, [])
  else if S.set.polys.counts.length = 0 then some (S, [])
  else
    let r := fits maximum S.set.polys.counts 0
    if r.1 = S.set.polys.counts.length then some (S, [])
    else (loop vertexSources maximum S n ⟨[], r.1, r.1, r.2, r.2⟩).map fun t => (cutSet r.1 r.2 S, t.copies)

/-- FCDGeometryPolygonsTools.cpp 1094-1178: all sets. -/
def fitAll (vertexSources : List Nat) (maximum n : Nat) : List PSet → Option (List PSet × List PSet)
  | [] => some ([], [])
  | S :: sets =>
    (fitSet vertexSources maximum n S).bind fun r => (fitAll vertexSources maximum n sets).map fun q => (r.1 :: q.1, r.2 ++ q.2)

/-- FCDGeometryPolygons.cpp 257-265. -/
def recalc (S : PSet) : PSet := { S with set := { S.set with polys := recalculate S.set.polys } }

/-- FCDGeometryPolygonsTools.cpp 1089-1181: `FitIndexBuffers`: the sets of the mesh afterwards. -/
def fitIndexBuffers (vertexSources : List Nat) (maximum n : Nat) (sets : List PSet) : Option (List PSet) :=
  (fitAll vertexSources maximum n sets).map fun q => (q.1 ++ q.2).map recalc

end Verif.FFit
