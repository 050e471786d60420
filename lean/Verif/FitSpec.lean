import Verif.Fit
import Verif.PolySpec

/-!
# Specification of the splitting of polygon sets (C72)
-/

namespace Verif.FFit

open Verif.FPoly Verif.FUnify

/-- A list cut into pieces of the given lengths. -/
def pieces {α : Type} : List Nat → List α → List (List α)
  | [], _ => []
  | c :: cs, l => l.take c :: pieces cs (l.drop c)

/-- The polygons of a set as lists of indices into the source `d`. -/
def polygons (S : PSet) (d : Nat) : List (List (Option Nat)) :=
  pieces S.set.polys.counts (indexList S.set.polys.inputs (S.set.srcs.idxOf d))

/-- The number of indices in each index buffer of a set. -/
def size (S : PSet) : Nat := S.set.polys.counts.sum

/-- Sets built as in C48 whose faces are not larger than the maximum, with different sources. The inputs at offset 0 are those of the per-vertex
sources. -/
structure Splittable (vertexSources : List Nat) (maximum : Nat) (S : PSet) : Prop where
  reach : Reach S.set.polys
  srcs : S.set.srcs.length = S.set.polys.inputs.length
  nodup : S.set.srcs.Nodup
  small : ∀ c ∈ S.set.polys.counts, c ≤ maximum
  total : S.set.polys.counts.sum < 2 ^ 32
  zero : ∀ (j d : Nat) (x : Input), S.set.srcs[j]? = some d → S.set.polys.inputs[j]? = some x → (x.offset = 0 ↔ d ∈ vertexSources)

/-- What is said of a set `T` that has some of the faces of `S`. -/
structure Part (maximum : Nat) (S T : PSet) : Prop where
  material : T.material = S.material
  size : size T ≤ maximum
  lists : ∀ i, i < T.set.polys.inputs.length → (indexList T.set.polys.inputs i).length ≤ maximum
  srcs : ∀ d ∈ S.set.srcs, d ∈ T.set.srcs

/-- One set, and the new sets with its other faces. -/
structure Split (maximum : Nat) (S H : PSet) (Cs : List PSet) : Prop where
  parts : ∀ T ∈ H :: Cs, Part maximum S T
  polys : ∀ d ∈ S.set.srcs, polygons S d = (H :: Cs).flatMap (polygons · d)
  head : H.set.srcs = S.set.srcs ∧ H.set.polys.prim = S.set.polys.prim ∧ H.set.polys.holes = S.set.polys.holes
  copies : ∀ T ∈ Cs, T.set.polys.prim = .polygons ∧ T.set.polys.holes = []
  fit : size S ≤ maximum → H = S ∧ Cs = []

end Verif.FFit
