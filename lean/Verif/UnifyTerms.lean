import Verif.UnifyInputs
import Verif.PolyProps

/-! # Terms used in the properties in UnifyProps -/

namespace Verif.FUnify

open Verif.FPoly

variable {α : Type}

/-- A mesh with two triangles in one polygon set, positions and normals with separate indices, and a third triangle in a second set. -/
def sample : Mesh Int :=
  { sources := [⟨3, [0, 0, 0, 1, 0, 0, 1, 1, 0, 0, 1, 0]⟩, ⟨1, [7, 8]⟩],
    sets := [⟨⟨[3, 3], [], [⟨0, [0, 1, 2, 0, 2, 3].map some⟩, ⟨1, [0, 0, 0, 0, 1, 0].map some⟩], .polygons, 6⟩, [0, 1]⟩,
      ⟨⟨[3], [], [⟨0, [0, 1, 0].map some⟩], .polygons, 3⟩, [0]⟩],
    vertexSources := [0] }

end Verif.FUnify
