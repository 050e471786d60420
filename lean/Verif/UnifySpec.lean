import Verif.Unify
import Verif.PolySpec

/-! # What unique indices are -/

namespace Verif.FUnify

open Verif.FPoly

/-- The indices of the corner `k` of a polygon set, in all its inputs. -/
def cornerKey (S : MSet) (k : Nat) : List (Option (Option Nat)) :=
  (List.range S.polys.inputs.length).map fun i => (indexList S.polys.inputs i)[k]?

/-- The corners of a polygon set, in order. -/
def cornerKeys (S : MSet) : List (List (Option (Option Nat))) := (List.range (indexList S.polys.inputs 0).length).map (cornerKey S)

/-- The number of different corners in some polygon sets; corners of different sets are different. -/
def vertexCount (sets : List MSet) : Nat := (sets.map fun S => (cornerKeys S).eraseDups.length).sum

/-- The new indices: in each set, the position of the corner among the different corners in the order of their first appearance, counted on from
the set before. -/
def newIndices : List MSet → Nat → List (List Nat)
  | [], _ => []
  | S :: sets, base =>
    (cornerKeys S).map (fun x => base + (cornerKeys S).eraseDups.idxOf x) :: newIndices sets (base + (cornerKeys S).eraseDups.length)

/-- The `i`-th value of a source. -/
def value {α : Type} (s : Source α) (i : Nat) : List α := (s.data.drop (s.stride * i)).take s.stride

/-- Meshes whose polygon sets have been built as in C48 and whose indices have all been set. No source is used twice in the same polygon set, and
32-bit numbers suffice to count the values. -/
structure Good {α : Type} (M : Mesh α) : Prop where
  prim : ∀ S ∈ M.sets, S.polys.prim ≠ .points
  reach : ∀ S ∈ M.sets, Reach S.polys
  init : ∀ S ∈ M.sets, ∀ i, i < S.polys.inputs.length → none ∉ indexList S.polys.inputs i
  srcs : ∀ S ∈ M.sets, S.srcs.length = S.polys.inputs.length ∧ S.srcs.Nodup ∧ ∀ d ∈ S.srcs, d < M.sources.length
  stride : ∀ s ∈ M.sources, 0 < s.stride ∧ s.data.length ≤ 2 ^ 32 ∧ s.stride * vertexCount M.sets ≤ 2 ^ 32
  count : vertexCount M.sets < 2 ^ 32

/-- Some corner has the old index `o` into the source `d`, and the new index `j`. -/
def Corner {α : Type} (M : Mesh α) (d o j : Nat) : Prop :=
  ∃ (p : Nat) (S : MSet) (B : List Nat) (i k : Nat), M.sets[p]? = some S ∧ (newIndices M.sets 0)[p]? = some B ∧ S.srcs[i]? = some d ∧
    (indexList S.polys.inputs i)[k]? = some (some o) ∧ B[k]? = some j

end Verif.FUnify
