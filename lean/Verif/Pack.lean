import Verif.Unify
import Mathlib.Algebra.Order.Floor.Defs
import Mathlib.Algebra.Order.Field.Basic

/-!
# Model of vertex packing (FCDocument/FCDGeometryPolygonsTools.cpp 915-1032)

`none` is undefined behaviour. The buffers a program passes in are lists; a read or write outside of them is undefined.
-/

namespace Verif.FPack

open Verif.FUnify (TMap Source)

/-- FCDGeometryPolygonsTools.cpp 915: `INVALID_VTX_IDX`. -/
def invalid : Nat := 65535

/-- What `GenerateVertexPackingMap` gives: the number of indices consumed, the number of vertices, the packing map and the new indices. -/
structure Packed where
  nIndices : Nat
  nVertices : Nat
  map : List Nat
  out : List Nat
deriving DecidableEq

/-- FCDGeometryPolygonsTools.cpp 994-1011: the loop; the first list are the indices not yet read and `maxI` is `maxIndices`. -/
def packLoop (maxV : Nat) : List Nat → Nat → Packed → Option Packed
  | [], maxI, s => if s.nIndices < maxI then none else some s
  | v :: ins, maxI, s =>
    if s.nIndices < maxI then
      (s.map[v]?).bind fun k =>
      if k = invalid then packLoop maxV ins (if s.nVertices + 1 ≥ maxV then s.nIndices else maxI) ⟨s.nIndices + 1, s.nVertices + 1, s.map.set v s.nVertices, s.out ++ [s.nVertices]⟩
      else packLoop maxV ins maxI ⟨s.nIndices + 1, s.nVertices, s.map, s.out ++ [k]⟩
    else some s

/-- FMArray.h 280-291: `resize` with a value, for a list that is not longer. -/
def extend (l : List Nat) (n v : Nat) : List Nat := l ++ List.replicate (n - l.length) v

/-- FCDGeometryPolygonsTools.cpp 988-1017: `GenerateVertexPackingMap` with all its outputs; `map` is the packing map before the call. A packing map longer
than `maxIndex + 1` is cut by `resize`. -/
def packingMap (maxIndex maxIndices maxVertices : Nat) (ins map : List Nat) : Option Packed :=
  (packLoop maxVertices ins (if maxIndices < invalid then maxIndices else invalid - 1) ⟨0, 0, (extend map (maxIndex + 1) invalid).take (maxIndex + 1), []⟩).map fun s =>
    if s.nVertices ≤ s.nIndices then s else { s with nVertices := s.nIndices }

/-- FCDGeometryPolygonsTools.cpp 950-953: the components of one vertex; `conv` is the conversion of the assignment. -/
def writeRow {α β : Type} (conv : α → Option β) : List α → List β → Option (List β)
  | [], row => some row
  | _ :: _, [] => none
  | v :: vs, _ :: row => (conv v).bind fun b => (writeRow conv vs row).map (b :: ·)

/-- FCDGeometryPolygonsTools.cpp 930-956: the new indices of one old index. -/
def packNew {α β : Type} (conv : α → Option β) (src : Source α) (vCount : Nat) (map : List Nat) (old : Nat) : List Nat → List (List β) → Option (List (List β))
  | [], dest => some dest
  | v :: news, dest =>
    (map[v]?).bind fun k =>
    if k = invalid then packNew conv src vCount map old news dest
    else if src.stride * old + vCount ≤ src.data.length then
      (dest[k]?).bind fun row => (writeRow conv ((src.data.drop (src.stride * old)).take vCount) row).bind fun row =>
      packNew conv src vCount map old news (dest.set k row)
    else none

/-- FCDGeometryPolygonsTools.cpp 926-957: the loop over the translation map. -/
def packAll {α β : Type} (conv : α → Option β) (src : Source α) (vCount : Nat) (map : List Nat) : TMap → List (List β) → Option (List (List β))
  | [], dest => some dest
  | p :: m, dest => (packNew conv src vCount map p.1 p.2 dest).bind fun dest => packAll conv src vCount map m dest

/-- FCDGeometryPolygonsTools.cpp 917-958: `PackVertexBuffers` with `isColor` false, as it is always used (968, 975, 982). The target buffer is a list of vertices,
each one a list of components. -/
def pack {α β : Type} (conv : α → Option β) (src : Source α) (vCount : Nat) (map : List Nat) (m : TMap) (dest : List (List β)) : Option (List (List β)) :=
  if vCount ≤ src.stride then packAll conv src vCount map m dest else some dest

/-- FCDGeometryPolygonsTools.cpp 964-969, 978-983: `PackVertexBufferV3`, `PackVertexBufferV2`: floats are copied. -/
def packFloats {α : Type} (src : Source α) (vCount : Nat) (map : List Nat) (m : TMap) (dest : List (List α)) : Option (List (List α)) := pack some src vCount map m dest

/-- The conversion of a float to `uint8`: the fraction is cut; a value that does not fit is undefined. -/
def toByte {K : Type} [Field K] [LinearOrder K] [FloorRing K] (x : K) : Option Nat := if -1 < x ∧ x < 256 then some ⌊x⌋.toNat else none

/-- FCDGeometryPolygonsTools.cpp 971-976: `PackVertexBufferColor`. -/
def packColors {K : Type} [Field K] [LinearOrder K] [FloorRing K] (src : Source K) (vCount : Nat) (map : List Nat) (m : TMap) (dest : List (List Nat)) :
    Option (List (List Nat)) := pack toByte src vCount map m dest

/-- FCDGeometryPolygonsTools.cpp 1019-1032: `FindLargestUniqueIndex`. -/
def largest (m : TMap) : Nat := m.foldl (fun a p => p.2.foldl max a) 0

end Verif.FPack
