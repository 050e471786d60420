import Verif.Effect

/-!
# Model of the convex hulls of meshes (FCollada/FCDocument/FCDGeometryMesh.cpp 59-79, 236-265, FColladaPlugins/FArchiveXML/FAXImportLinking.cpp 566-589, FArchiveXML.cpp 755-760)

The geometries of a library are a list, with the mesh of each that has one. What a mesh holds, its sources and polygon sets, is a list of things of a type `D`; `Clone` (C84) appends copies of them. `none` is undefined behaviour
or a loop without end.
-/

namespace Verif.FHull

open Verif.FEff (Text text)

/-- FCDGeometryMesh.h 57-71, FCDGeometryMesh.cpp 34-43: `FCDGeometryMesh`. -/
structure HMesh (D : Type) where
  hull : Text := []
  convex : Bool := true
  convexify : Bool := false
  data : List D := []

/-- A geometry: its id and its mesh. -/
abbrev Geo (D : Type) := Text × Option (HMesh D)

variable {D : Type}

/-- FCDLibrary.hpp 50-72: `FindDaeId`: the place of the first with the id. -/
def findGeo (lib : List (Geo D)) (id : Text) : Option Nat := lib.findIdx? fun g => decide (g.1 = id)

/-- The mesh of the geometry at a place. -/
def meshAt (lib : List (Geo D)) (i : Nat) : Option (HMesh D) := (lib[i]?).bind (·.2)

/-- FCDGeometryMesh.cpp 236-265: `Clone` of `o` into `m`; the lists of `m` may be those of `o`, which is undefined behaviour if they grow while they are walked. -/
def cloneInto (same : Bool) (o m : HMesh D) : Option (HMesh D) :=
  if same = true ∧ o.data ≠ [] then none else some ⟨o.hull, o.convex, o.convexify, m.data ++ o.data⟩

/-- FAXImportLinking.cpp 566-589: `LinkGeometryMesh` of the mesh at `i`: the library after it, and whether an error is reported. -/
def linkMesh (lib : List (Geo D)) (i : Nat) : Option (List (Geo D) × Bool) :=
  match lib[i]? with
  | some (id, some m) =>
    if m.convex = false ∨ m.hull = [] then some (lib, false)
    else match findGeo lib m.hull with
      | none => some (lib, true)
      | some j => match meshAt lib j with
        | none => some (lib, false)
        | some o => (cloneInto (decide (j = i)) o m).map fun c => (lib.set i (id, some { c with convexify := true, convex := true }), false)
  | _ => some (lib, false)

/-- FArchiveXML.cpp 755-760: all geometries are linked in order; `n` are left, and the first of them is at `i`. The number of errors is counted. -/
def linkFrom (i : Nat) : Nat → List (Geo D) → Option (List (Geo D) × Nat)
  | 0, lib => some (lib, 0)
  | n + 1, lib => (linkMesh lib i).bind fun r => (linkFrom (i + 1) n r.1).map fun q => (q.1, q.2 + if r.2 then 1 else 0)

/-- FArchiveXML.cpp 755-760. -/
def linkAll (lib : List (Geo D)) : Option (List (Geo D) × Nat) := linkFrom 0 lib.length lib

/-- FCDGeometryMesh.cpp 65-79: `FindConvexHullOfMesh`, with at most `n` steps. -/
def findHull (lib : List (Geo D)) : Nat → Option (HMesh D) → Option (Option (HMesh D))
  | 0, _ => none
  | _ + 1, none => some none
  | n + 1, some m => if m.hull = [] then some (some m) else match findGeo lib m.hull with
    | none => some none
    | some j => findHull lib n (meshAt lib j)

end Verif.FHull
