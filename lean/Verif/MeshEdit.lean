import Verif.Fit

/-!
# Model of the release of data sources, of new per-vertex sources and of the cloning of meshes (FCDocument/FCDGeometryPolygonsInput.cpp 31-90, FUtils/FUTracker.cpp 18-51, FCDGeometryMesh.cpp
174-204, 236-265, FCDGeometryPolygons.cpp 288-337)

The sources of a mesh are known by their positions in its list of sources. Set numbers of inputs, ids, names, animated values, the convex flags, the counters of the mesh and the flags of
changed objects are left out. `none` as a source is a null pointer; `none` as a result is undefined behaviour, or a call for an input that does not exist.
-/

namespace Verif.FMesh

open Verif.FPoly Verif.FUnify Verif.FFit

/-! ## The release of a source -/

/-- FCDGeometryPolygonsInput.h 52-56: an input with its identity and its source. -/
structure TInput where
  name : Nat
  src : Option Nat
  input : Input
deriving DecidableEq

/-- The trackers of a source that belong to the inputs: the tracked pointer `source` of an input (FCDGeometryPolygonsInput.h 53, FUParameter.h 120) and the input itself
(FCDGeometryPolygonsInput.h 47). -/
inductive Tracker where
  | ptr (name : Nat)
  | input (name : Nat)
deriving DecidableEq

/-- A polygon set and the sources: which of them exist, and their lists of trackers (FUTracker.h 39) as far as they belong to this set. -/
structure World where
  inputs : List TInput
  next : Nat
  alive : Nat → Bool
  trackers : Nat → List Tracker

/-- FUTracker.cpp 41-45: `AddTracker`; `none` if the source does not exist. -/
def track (t : Tracker) (d : Nat) (w : World) : Option World :=
  if w.alive d then
    some { w with trackers := fun e => if e = d then (if t ∈ w.trackers d then w.trackers d else w.trackers d ++ [t]) else w.trackers e }
  else none

/-- FUTracker.cpp 46-51: `RemoveTracker`; `none` if the source does not exist. -/
def untrack (t : Tracker) (d : Nat) (w : World) : Option World :=
  if w.alive d then some { w with trackers := fun e => if e = d then (w.trackers d).erase t else w.trackers e } else none

/-- FUTracker.h 102-106: `TrackObject` and `UntrackObject` of a null pointer do nothing. -/
def onPtr (f : Nat → World → Option World) (s : Option Nat) (w : World) : Option World :=
  match s with
  | some d => f d w
  | none => some w

/-- The source of the input `n` is stored. -/
def putSource (n : Nat) (s : Option Nat) (w : World) : World := { w with inputs := w.inputs.map fun x => if x.name = n then { x with src := s } else x }

/-- The source of the input `n`; `none` if there is no such input. -/
def sourceOf (w : World) (n : Nat) : Option (Option Nat) := (w.inputs.find? fun x => x.name = n).map TInput.src

/-- FUTracker.h 135-141: the assignment of the tracked pointer of the input `n`, whose value is `old`. -/
def assign (n : Nat) (old s : Option Nat) (w : World) : Option World := (onPtr (untrack (.ptr n)) old w).bind fun w => onPtr (track (.ptr n)) s (putSource n s w)

/-- FCDGeometryPolygonsInput.cpp 47-53: `SetSource`. -/
def setSource (n : Nat) (s : Option Nat) (w : World) : Option World :=
  (sourceOf w n).bind fun old => (onPtr (untrack (.input n)) old w).bind fun w => (assign n old s w).bind fun w => onPtr (track (.input n)) s w

/-- FCDGeometryPolygons.cpp 173-181: `AddInput`. -/
def addInput (s : Option Nat) (offset : Nat) (w : World) : Option World :=
  setSource w.next s { w with inputs := w.inputs ++ [⟨w.next, none, ⟨offset, []⟩⟩], next := w.next + 1 }

/-- FCDGeometryPolygonsInput.cpp 31-38: the release of an input. -/
def releaseInput (n : Nat) (w : World) : Option World :=
  (sourceOf w n).bind fun old => (onPtr (untrack (.input n)) old w).bind fun w => (assign n old none w).map fun w =>
    { w with inputs := w.inputs.filter fun x => x.name ≠ n }

/-- FCDGeometryPolygonsInput.cpp 81-90: `SetIndices` of the input `n`. -/
def setIndices (n : Nat) (l : List (Option Nat)) (w : World) : Option World :=
  (w.inputs.findIdx? fun x => x.name = n).map fun i =>
    { w with inputs := w.inputs.zipWith (fun x y => { x with input := y }) (FPoly.setIndices (w.inputs.map TInput.input) i l) }

/-- FCDGeometryPolygonsInput.cpp 66-76: the loop: the first input with the same offset, which may be the input `n` itself, gets the list; then that of the input `n` is
cleared. -/
def moveIndices (n : Nat) (x : Input) (xs : List TInput) : List TInput :=
  match xs.findIdx? (fun y => y.input.offset = x.offset) with
  | some j => (xs.modify j fun y => { y with input := { y.input with indices := x.indices } }).map fun y =>
      if y.name = n then { y with input := { y.input with indices := [] } } else y
  | none => xs

/-- FUTracker.h 161-165: the tracked pointer of the input `n` becomes null. -/
def ptrReleased (d n : Nat) (xs : List TInput) : List TInput := xs.map fun x => if x.name = n ∧ x.src = some d then { x with src := none } else x

/-- FCDGeometryPolygonsInput.cpp 56-79: `OnObjectReleased` of the input `n`. That line 60 would change the list of trackers is left out. -/
def inputReleased (d n : Nat) (xs : List TInput) : List TInput :=
  match xs.find? fun x => x.name = n with
  | some x => if x.src = some d then (if owns x.input then moveIndices n x.input (ptrReleased d n xs) else ptrReleased d n xs) else xs
  | none => xs

/-- FUTracker.cpp 32: one tracker is told. -/
def onReleased (d : Nat) (xs : List TInput) : Tracker → List TInput
  | .ptr n => ptrReleased d n xs
  | .input n => inputReleased d n xs

/-- FUTracker.cpp 22-38: the release of the source `d`. -/
def releaseSource (d : Nat) (w : World) : Option World :=
  if w.alive d then
    some { w with inputs := (w.trackers d).foldl (onReleased d) w.inputs, alive := fun e => if e = d then false else w.alive e,
                  trackers := fun e => if e = d then [] else w.trackers e }
  else none

/-- FCDGeometryMesh.cpp 207-214: a new source. -/
def createSource (d : Nat) (w : World) : Option World :=
  if w.alive d then none else some { w with alive := fun e => if e = d then true else w.alive e, trackers := fun e => if e = d then [] else w.trackers e }

/-! ## Per-vertex sources -/

/-- FCDGeometryMesh.h: what these functions use of a mesh. -/
structure CMesh (α : Type) where
  sources : List (Source α)
  sets : List PSet
  vertexSources : List Nat
deriving DecidableEq

/-- FCDGeometryMesh.cpp 174-194: `AddVertexSource` for a source of the mesh. -/
def addVertexSource {α : Type} (d : Nat) (M : CMesh α) : CMesh α :=
  if d ∈ M.vertexSources then M
  else { M with vertexSources := M.vertexSources ++ [d], sets := M.sets.map fun S => { S with set := vertexInput d S.set } }

/-- FCDGeometryMesh.cpp 196-204: `RemoveVertexSource`. -/
def removeVertexSource {α : Type} (d : Nat) (M : CMesh α) : CMesh α := { M with vertexSources := M.vertexSources.erase d }

/-! ## Clones -/

/-- FCDGeometryPolygons.cpp 329-332: the input `i` of the clone gets the list of the input `j` if that has its own. -/
def cloneIndices (S : MSet) (j : Nat) (x : Input) (C : MSet) (i : Nat) : MSet :=
  if owns x then { C with polys := { C.polys with inputs := FPoly.setIndices C.polys.inputs i (indexList S.polys.inputs j) } } else C

/-- FCDGeometryPolygons.cpp 305-334: one input. Only the sources of the mesh are modelled. -/
def cloneInput (sourceCount : Nat) (S C : MSet) (j : Nat) : Option MSet :=
  match S.srcs[j]?, S.polys.inputs[j]? with
  | some d, some x =>
    if d < sourceCount then
      match findInput C d with
      | some i => some (cloneIndices S j x C i)
      | none => some (cloneIndices S j x ⟨FPoly.addInput C.polys x.offset, C.srcs ++ [d]⟩ C.srcs.length)
    else none
  | _, _ => none

/-- FCDGeometryPolygons.cpp 288-337: `Clone` into a new set of the clone; the type of primitives is not copied. -/
def cloneSet (sourceCount : Nat) (vertexSources : List Nat) (S : PSet) : Option PSet :=
  ((List.range S.set.polys.inputs.length).foldlM (cloneInput sourceCount S.set) (newSet vertexSources)).map fun C =>
    ⟨{ C with polys := { C.polys with counts := S.set.polys.counts, holes := S.set.polys.holes, total := S.set.polys.total } }, S.material⟩

/-- FCDGeometryMesh.cpp 250-255: the per-vertex sources of the clone, in the order of all sources. -/
def cloneVertexSources {α : Type} (M : CMesh α) : List Nat := (List.range M.sources.length).filter (· ∈ M.vertexSources)

/-- FCDGeometryMesh.cpp 236-265: `Clone` into a new mesh. -/
def cloneMesh {α : Type} (M : CMesh α) : Option (CMesh α) :=
  (M.sets.mapM (cloneSet M.sources.length (cloneVertexSources M))).map fun sets => ⟨M.sources, sets, cloneVertexSources M⟩

end Verif.FMesh
