import Verif.MeshEditLemmas
import Verif.PolyProps

/-! # Terms used in the properties in MeshEditProps -/

namespace Verif.FMesh

open Verif.FPoly Verif.FUnify Verif.FFit

/-- A mesh with a per-vertex source 0, and sources 1 and 2 that share the offset 1. -/
def sampleMesh (prim : Prim) : CMesh Int :=
  ⟨[⟨3, []⟩, ⟨3, []⟩, ⟨2, []⟩],
    [⟨⟨⟨[3], [], [⟨0, [0, 1, 2].map some⟩, ⟨1, [7, 7, 8].map some⟩, ⟨1, []⟩], prim, 3⟩, [0, 1, 2]⟩, [109]⟩], [0]⟩

end Verif.FMesh
