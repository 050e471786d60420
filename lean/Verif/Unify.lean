import Mathlib.Algebra.Notation.Defs
import Verif.Poly

/-!
# Model of the generation of unique indices (FCDocument/FCDGeometryPolygonsTools.cpp 430-907)

The sources of a mesh are known by their positions in its list of sources. Semantic types, names, set numbers, animated values and the flags of
changed objects are left out. `fm::map` is a partial function (its own model is `Verif.Tree`); where a map is iterated it is a list in the order
of the keys. `α` is the type of the floating-point values. `none` is undefined behaviour.
-/

namespace Verif.FUnify

open Verif.FPoly

/-- FCDGeometrySource.h 48-49: the stride and the data of a source. -/
structure Source (α : Type) where
  stride : Nat
  data : List α
deriving DecidableEq

/-- A polygon set, with the source of each of its inputs (FCDGeometryPolygonsInput.h 53). -/
structure MSet where
  polys : Polys
  srcs : List Nat
deriving DecidableEq

/-- FCDGeometryMesh.h 62-65: a mesh. -/
structure Mesh (α : Type) where
  sources : List (Source α)
  sets : List MSet
  vertexSources : List Nat
deriving DecidableEq

/-! ## The new indices -/

/-- FCDGeometryPolygonsTools.cpp 461-472, 611-620: the loop that collects the index lists; lists that are not as long as the first are dropped. -/
def ownerLoop : List Input → List (List (Option Nat)) → List (List (Option Nat))
  | [], owners => owners
  | x :: ins, owners =>
    if owns x then
      match owners with
      | [] => ownerLoop ins [x.indices]
      | o :: os => if o.length = x.indices.length then ownerLoop ins (o :: os ++ [x.indices]) else ownerLoop ins (o :: os)
    else ownerLoop ins owners

/-- FCDGeometryPolygonsTools.cpp 480, 496-500: the hash value of the indices of one corner; list `h` of `size` is shifted by `32 h / size`. -/
def hashLoop (size : Nat) : Nat → List Nat → Nat → Nat
  | _, [], v => v
  | h, x :: xs, v => hashLoop size (h + 1) xs (v ^^^ ((x <<< (32 * h / size)) % 2 ^ 32))

/-- FCDGeometryPolygonsTools.cpp 430: the values and new indices for one hash value. -/
structure Bucket where
  allValues : List Nat
  newIndex : List Nat

/-- FCDGeometryPolygonsTools.cpp 509-522, 657-670: the search in a bucket. The number of rounds is the length of `newIndex`, which is
`allValues.size() / listCount`. -/
def probe (key : List Nat) (total : Nat) : List Nat → List Nat → Nat → Nat
  | _, [], cur => cur
  | vals, n :: ns, cur =>
    if cur = total then probe key total (vals.drop key.length) ns (if vals.take key.length = key then n else cur) else cur

/-- What is known while one polygon set is read: the buckets, the number of new vertices and the new indices. -/
structure Work where
  map : Nat → Option Bucket
  total : Nat
  out : List Nat

/-- FCDGeometryPolygonsTools.cpp 535-541, 683-690: a vertex is added to a bucket. -/
def pushVertex (W : Work) (hashValue : Nat) (b : Bucket) (key : List Nat) (newIndex : Nat) : Work :=
  if newIndex = W.total then
    { map := fun h => if h = hashValue then some ⟨b.allValues ++ key, b.newIndex ++ [newIndex]⟩ else W.map h,
      total := W.total + 1, out := W.out ++ [newIndex] }
  else { map := fun h => if h = hashValue then some b else W.map h, total := W.total, out := W.out ++ [newIndex] }

/-- FCDGeometryPolygonsTools.cpp 503-543, 651-691: the rest of one round, for the bucket of the hash value; `newIndex` has 32 bits. -/
def stepKey (W : Work) (key : List Nat) : Work :=
  match W.map (hashLoop key.length 0 key 0) with
  | some b => pushVertex W (hashLoop key.length 0 key 0) b key (probe key W.total b.allValues b.newIndex (W.total % 2 ^ 32))
  | none => pushVertex W (hashLoop key.length 0 key 0) ⟨[], []⟩ key (W.total % 2 ^ 32)

/-- FCDGeometryPolygonsTools.cpp 497-500, 645-648: the indices of one corner; `none` if one has not been initialised. -/
def keyOf (owners : List (List (Option Nat))) (i : Nat) : Option (List Nat) := owners.mapM fun l => (l[i]?).join

/-- FCDGeometryPolygonsTools.cpp 493-544, 641-692: the loop over the corners. -/
def cornerLoop (owners : List (List (Option Nat))) : List Nat → Work → Option Work
  | [], W => some W
  | i :: is, W => (keyOf owners i).bind fun key => cornerLoop owners is (stepKey W key)

/-- FCDGeometryPolygonsTools.cpp 459-545, 609-693: one polygon set: its new indices and the new number of vertices. -/
def setIndicesOf (P : Polys) (total : Nat) : Option (List Nat × Nat) :=
  match ownerLoop P.inputs [] with
  | [] => some ([], total)
  | o :: os => (cornerLoop (o :: os) (List.range o.length) ⟨fun _ => none, total, []⟩).map fun W => (W.out, W.total)

/-- FCDGeometryPolygonsTools.cpp 447-546, 599-694: the loop over all polygon sets; the inner `none` is the return at a set of points. -/
def fillLoop : List MSet → Nat → Option (Option (List (List Nat) × Nat))
  | [], total => some (some ([], total))
  | S :: sets, total =>
    if S.polys.prim = .points then some none
    else (setIndicesOf S.polys total).bind fun r => (fillLoop sets r.2).map fun q => q.map fun q => (r.1 :: q.1, q.2)

/-! ## The data -/

/-- FCDGeometrySource.h 112: `GetValueCount`; `none` is a division by zero. -/
def valueCount {α : Type} (s : Source α) : Option Nat := if s.stride = 0 then none else some (s.data.length / s.stride)

/-- FCDGeometryPolygonsTools.cpp 752-755: one value is copied; the positions are computed with 32 bits. -/
def copyValue {α : Type} (old : Source α) (oldIndex newIndex : Nat) : List Nat → List α → Option (List α)
  | [], buf => some buf
  | s :: ss, buf =>
    (old.data[(old.stride * oldIndex + s) % 2 ^ 32]?).bind fun v =>
    if (old.stride * newIndex + s) % 2 ^ 32 < buf.length then copyValue old oldIndex newIndex ss (buf.set ((old.stride * newIndex + s) % 2 ^ 32) v) else none

/-- FCDGeometryPolygonsTools.cpp 727-765: the loop over the corners of one polygon set, given the pairs of an old and a new index. -/
def copyLoop {α : Type} (old : Source α) : List (Option Nat × Nat) → List α → Option (List α)
  | [], buf => some buf
  | (oldIndex, newIndex) :: l, buf =>
    oldIndex.bind fun oldIndex => (valueCount old).bind fun n =>
    if n ≤ oldIndex then copyLoop old l buf
    else (copyValue old oldIndex newIndex (List.range old.stride) buf).bind (copyLoop old l)

/-- FCDGeometryPolygons.cpp 226-233: `FindInput`. -/
def findInput (S : MSet) (d : Nat) : Option Nat := S.srcs.findIdx? (· = d)

/-- FCDGeometryPolygonsTools.cpp 718-727: the old and new indices of the corners of one polygon set, for one source. -/
def indexPairs (S : MSet) (d : Nat) (buffer : List Nat) : List (Option Nat × Nat) :=
  match findInput S d with
  | none => []
  | some i => (indexList S.polys.inputs i).zip buffer

/-- FCDGeometryPolygonsTools.cpp 713-775: the loop over all polygon sets. -/
def copySets {α : Type} (old : Source α) (d : Nat) : List (MSet × List Nat) → List α → Option (List α)
  | [], buf => some buf
  | (S, buffer) :: l, buf => (copyLoop old (indexPairs S d buffer) buf).bind (copySets old d l)

/-- FCDGeometryPolygonsTools.cpp 700-784: the new data of a source; no data leaves the source as it is. -/
def newSource {α : Type} [Zero α] (old : Source α) (d total : Nat) (l : List (MSet × List Nat)) : Option (Source α) :=
  (copySets old d l (List.replicate (old.stride * total) 0)).map fun buf => if buf = [] ∧ old.data ≠ [] then old else { old with data := buf }

/-- FCDGeometryPolygonsTools.cpp 698-792: the loop over the sources. -/
def sourceLoop {α : Type} [Zero α] (total : Nat) (l : List (MSet × List Nat)) : Nat → List (Source α) → Option (List (Source α))
  | _, [] => some []
  | d, s :: ss => (newSource s d total l).bind fun s' => (sourceLoop total l (d + 1) ss).map fun ss' => s' :: ss'

/-! ## The new inputs -/

/-- FCDGeometryMesh.cpp 186-190: the input that uses the source is released and a new one added at offset 0. -/
def vertexInput (d : Nat) (S : MSet) : MSet :=
  match findInput S d with
  | some i => { polys := { S.polys with inputs := S.polys.inputs.eraseIdx i ++ [⟨0, []⟩] }, srcs := S.srcs.eraseIdx i ++ [d] }
  | none => { polys := { S.polys with inputs := S.polys.inputs ++ [⟨0, []⟩] }, srcs := S.srcs ++ [d] }

/-- FCDGeometryPolygonsTools.cpp 798-805, FCDGeometryMesh.cpp 174-194: all sources become per-vertex. -/
def vertexLoop {α : Type} : List Nat → Mesh α → Mesh α
  | [], M => M
  | d :: ds, M =>
    if d ∈ M.vertexSources then vertexLoop ds M
    else vertexLoop ds { M with sets := M.sets.map (vertexInput d), vertexSources := M.vertexSources ++ [d] }

/-- FCDGeometryPolygonsTools.cpp 816-824: the loop over the inputs of one polygon set; `none` if an input has no source. -/
def enforceLoop {α : Type} (sources : List (Source α)) (srcs : List Nat) (buffer : List Nat) : List Nat → List Input → Option (List Input)
  | [], ins => some ins
  | i :: is, ins =>
    ((srcs[i]?).bind fun d => sources[d]?).bind fun s =>
    if s.data = [] ∨ buffer = [] then enforceLoop sources srcs buffer is ins
    else enforceLoop sources srcs buffer is (setIndices ins i (buffer.map some))

/-- FCDGeometryPolygonsTools.cpp 809-825: the loop over the polygon sets. -/
def enforceSets {α : Type} (sources : List (Source α)) : List (MSet × List Nat) → Option (List MSet)
  | [] => some []
  | (S, buffer) :: l =>
    (enforceLoop sources S.srcs buffer (List.range S.polys.inputs.length) S.polys.inputs).bind fun ins =>
    (enforceSets sources l).map fun l' => { S with polys := { S.polys with inputs := ins } } :: l'

/-- FCDGeometryPolygonsTools.cpp 590-826: `GenerateUniqueIndices` for all polygon sets of a mesh. -/
def generate {α : Type} [Zero α] (M : Mesh α) : Option (Mesh α) :=
  if M.sets = [] then some M
  else
    (fillLoop M.sets 0).bind fun r =>
    match r with
    | none => some M
    | some (buffers, total) =>
      (sourceLoop total (M.sets.zip buffers) 0 M.sources).bind fun sources =>
      (enforceSets (vertexLoop (List.range sources.length) { M with sources := sources }).sources
        ((vertexLoop (List.range sources.length) { M with sources := sources }).sets.zip buffers)).map fun sets =>
      { vertexLoop (List.range sources.length) { M with sources := sources } with sets := sets }

/-! ## Translation maps -/

/-- A translation map: for each old index, in increasing order, the new indices (FCDGeometryPolygonsTools.h 24). -/
abbrev TMap := List (Nat × List Nat)

/-- FCDGeometryPolygonsTools.cpp 581-584, 760-763: a pair of an old and a new index is added. -/
def addPair (oldIndex newIndex : Nat) : TMap → TMap
  | [] => [(oldIndex, [newIndex])]
  | (o, l) :: m =>
    if oldIndex < o then (oldIndex, [newIndex]) :: (o, l) :: m
    else if oldIndex = o then (o, if newIndex ∈ l then l else l ++ [newIndex]) :: m
    else (o, l) :: addPair oldIndex newIndex m

/-- FCDGeometryPolygonsTools.cpp 574-585: the loop over the corners of one polygon set. -/
def pairLoop {α : Type} (old : Source α) : List (Option Nat × Nat) → TMap → Option TMap
  | [], m => some m
  | (oldIndex, newIndex) :: l, m =>
    oldIndex.bind fun oldIndex => (valueCount old).bind fun n =>
    if n ≤ oldIndex then pairLoop old l m else pairLoop old l (addPair oldIndex newIndex m)

/-- FCDGeometryPolygonsTools.cpp 560-586: the loop over the polygon sets, for one source. -/
def pairSets {α : Type} (old : Source α) (d : Nat) : List (MSet × List Nat) → TMap → Option TMap
  | [], m => some m
  | (S, buffer) :: l, m => (pairLoop old (indexPairs S d buffer) m).bind (pairSets old d l)

/-- FCDGeometryPolygonsTools.cpp 552-587: the loop over the sources. -/
def mapLoop {α : Type} (l : List (MSet × List Nat)) : Nat → List (Source α) → Option (List TMap)
  | _, [] => some []
  | d, s :: ss => (pairSets s d l []).bind fun m => (mapLoop l (d + 1) ss).map fun ms => m :: ms

/-- FCDGeometryPolygonsTools.cpp 436-588: `GenerateUniqueIndices` into empty lists of new indices and translation maps, for all polygon sets; the
inner `none` is the return at a set of points. -/
def generateMaps {α : Type} (M : Mesh α) : Option (Option (List (List Nat) × List TMap)) :=
  (fillLoop M.sets 0).bind fun r =>
  match r with
  | none => some none
  | some (buffers, _) => (mapLoop (M.sets.zip buffers) 0 M.sources).map fun ms => some (buffers, ms)

/-- FCDGeometryPolygonsTools.cpp 835-841: the loop over the new indices of one old index. -/
def applyList {α : Type} (src : Source α) (oldIndex : Nat) : List Nat → List α → Option (List α)
  | [], buf => some buf
  | n :: ns, buf => (copyValue src oldIndex n (List.range src.stride) buf).bind (applyList src oldIndex ns)

/-- FCDGeometryPolygonsTools.cpp 830-843: `ApplyUniqueIndices` for two arrays. -/
def applyMap {α : Type} (src : Source α) : TMap → List α → Option (List α)
  | [], buf => some buf
  | (o, l) :: m, buf => (applyList src o l buf).bind (applyMap src m)

/-- FMArray.h 258-275: `resize` of a list of data; the values that are new are arbitrary, here 0. -/
def resizeData {α : Type} [Zero α] (n : Nat) (l : List α) : List α := l.take n ++ List.replicate (n - l.length) 0

/-- FCDGeometryPolygonsTools.cpp 845-857: `ApplyUniqueIndices` for a source. -/
def applySource {α : Type} [Zero α] (s : Source α) (nValues : Nat) (m : TMap) : Option (Source α) :=
  (valueCount s).bind fun n =>
  if n = m.length then (applyMap s m (resizeData (nValues * s.stride) s.data)).map fun d => { s with data := d } else some s

/-- FCDGeometryPolygonsTools.cpp 861-872: the number of values that the new indices need. -/
def bufferLen (m : TMap) : Nat := (m.foldl (fun a p => p.2.foldl max a) 0) + 1

/-- FCDGeometryPolygonsTools.cpp 895-906: the loop over the polygon sets; `rest` is what is left of the new indices. `none` if a set has no input
or if indices are read behind the end of the list. -/
def resetIndices : List MSet → List Nat → Option (List MSet)
  | [], _ => some []
  | S :: sets, rest =>
    if S.polys.inputs = [] then none
    else
      let n := if rest.length ≤ (indexList S.polys.inputs 0).length then (indexList S.polys.inputs 0).length else rest.length
      if n ≤ rest.length then
        (resetIndices sets (rest.drop n)).map fun sets' =>
        { S with polys := { S.polys with inputs := setIndices S.polys.inputs 0 ((rest.take n).map some) } } :: sets'
      else none

end Verif.FUnify
