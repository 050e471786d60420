import Verif.Hull

/-! # What the source of a convex hull is -/

namespace Verif.FHull

open Verif.FEff (Text)

variable {D : Type}

/-- The mesh at `i` is to be made from the mesh at `j`. -/
def Needs (lib : List (Geo D)) (i j : Nat) : Prop := ∃ m, meshAt lib i = some m ∧ m.hull ≠ [] ∧ findGeo lib m.hull = some j

/-- The mesh, or none, from which the mesh at `i` is made in the end. -/
inductive Origin (lib : List (Geo D)) : Nat → Option (HMesh D) → Prop
  | plain {i m} : meshAt lib i = some m → m.hull = [] → Origin lib i (some m)
  | unknown {i m} : meshAt lib i = some m → m.hull ≠ [] → findGeo lib m.hull = none → Origin lib i none
  | noMesh {i} : meshAt lib i = none → Origin lib i none
  | step {i j r} : Needs lib i j → Origin lib j r → Origin lib i r

end Verif.FHull
