import Verif.MeshEdit
import Verif.FitSpec

/-!
# Specification for the release of data sources, new per-vertex sources and clones of meshes (C83, C84)
-/

namespace Verif.FMesh

open Verif.FPoly Verif.FUnify Verif.FFit

/-- What a program does with the inputs of a polygon set and with sources. -/
inductive Act where
  | createSource (d : Nat)
  | releaseSource (d : Nat)
  | addInput (s : Option Nat) (offset : Nat)
  | releaseInput (n : Nat)
  | setSource (n : Nat) (s : Option Nat)
  | setIndices (n : Nat) (l : List (Option Nat))

def act (w : World) : Act → Option World
  | .createSource d => createSource d w
  | .releaseSource d => releaseSource d w
  | .addInput s offset => addInput s offset w
  | .releaseInput n => releaseInput n w
  | .setSource n s => setSource n s w
  | .setIndices n l => setIndices n l w

/-- The program gives only pointers to sources and inputs that exist. -/
def Allowed (w : World) : Act → Prop
  | .createSource d => w.alive d = false
  | .releaseSource d => w.alive d = true
  | .addInput s _ => ∀ d, s = some d → w.alive d = true
  | .releaseInput n => ∃ x ∈ w.inputs, x.name = n
  | .setSource n s => (∃ x ∈ w.inputs, x.name = n) ∧ ∀ d, s = some d → w.alive d = true
  | .setIndices n _ => ∃ x ∈ w.inputs, x.name = n

/-- A new polygon set, and no sources. -/
def start : World := ⟨[], 0, fun _ => false, fun _ => []⟩

/-- The states a program can reach. -/
inductive Reached : World → Prop where
  | start : Reached start
  | step {w a w'} : Reached w → Allowed w a → act w a = some w' → Reached w'

/-- The indices that the input at the position `k` uses. -/
def indices (w : World) (k : Nat) : List (Option Nat) := indexList (w.inputs.map TInput.input) k

/-- The indices of a polygon set into the source `d`. -/
def indicesOf (S : MSet) (d : Nat) : List (Option Nat) := indexList S.polys.inputs (S.srcs.idxOf d)

/-- The offset of the input of the source `d`. -/
def offsetOf (S : MSet) (d : Nat) : Option Nat := (S.polys.inputs[S.srcs.idxOf d]?).map Input.offset

/-- A polygon set built as in C48, with one input for each of its sources. -/
structure Built (S : MSet) : Prop where
  reach : Reach S.polys
  srcs : S.srcs.length = S.polys.inputs.length
  nodup : S.srcs.Nodup

/-- Meshes whose inputs use sources of the mesh, with those of the per-vertex sources at offset 0. -/
structure Plain {α : Type} (M : CMesh α) : Prop where
  built : ∀ S ∈ M.sets, Built S.set
  known : ∀ S ∈ M.sets, ∀ d ∈ S.set.srcs, d < M.sources.length
  vertex : ∀ d ∈ M.vertexSources, d < M.sources.length
  zero : ∀ S ∈ M.sets, ∀ d ∈ S.set.srcs, d ∈ M.vertexSources → offsetOf S.set d = some 0

/-- What a clone of a polygon set has in common with it. -/
structure SameSet (S T : PSet) : Prop where
  material : T.material = S.material
  counts : T.set.polys.counts = S.set.polys.counts
  holes : T.set.polys.holes = S.set.polys.holes
  total : T.set.polys.total = S.set.polys.total
  srcs : ∀ d ∈ S.set.srcs, d ∈ T.set.srcs
  offset : ∀ d ∈ S.set.srcs, offsetOf T.set d = offsetOf S.set d
  indices : ∀ d ∈ S.set.srcs, indicesOf T.set d = indicesOf S.set d

end Verif.FMesh
