import Verif.ArcPoly
import Verif.ArcExtraSpec
import Verif.PolySpec

/-! # Which polygon sets can be saved, and what is loaded -/

namespace Verif.FArc

open Verif.FEff (Text text)
open Verif.FPoly (Prim)

/-- What a program sees of an input: its source, its set, its offset and its indices. -/
abbrev View := Option Nat × Int × Nat × List Nat

/-- The inputs as a program sees them. -/
def views (ins : List GInput) : List View := ins.mapIdx fun i x => (x.source, x.set, x.offset, indicesOf ins i)

/-- Whether a source is one of the per-vertex sources of the mesh. -/
def perVertex (M : GMesh) (s : Option Nat) : Bool := match s with
  | some s => decide (s ∈ M.vertex)
  | none => false

/-- The sources `ss`, of which those used by the inputs, other than the per-vertex ones, have the types they have in the mesh. -/
def typed (M : GMesh) (ins : List GInput) (ss : List GSource) : List GSource :=
  ss.mapIdx fun s src => if ins.any fun x => decide (x.source = some s) && !perVertex M x.source then { src with type := ((M.sources[s]?).map GSource.type).getD src.type } else src

/-- The sources of a mesh that inputs can refer to: no two have the same id, and the id of the geometry can be read back. -/
structure GoodSources (M : GMesh) : Prop where
  plain : Plain M.id
  ids : (M.sources.map GSource.id).Nodup
  some : M.vertex ≠ []

/-- An input that can be saved: its source has an id and a known type; the set and the offset fit in 31 bits. -/
def GoodInput (M : GMesh) (x : GInput) : Prop :=
  ∃ s src, x.source = some s ∧ M.sources[s]? = some src ∧ src.type ≠ .unknown ∧ src.type ≠ .vertex ∧ src.id ≠ [] ∧ src.id.head? ≠ some 35 ∧ Plain src.id ∧ -1 ≤ x.set ∧ x.set + 48 < 2 ^ 31 ∧
    x.offset < 2 ^ 31

/-- A polygon set that can be saved: it does not have points; its faces and holes are in order; the per-vertex sources have an input each, at the offset 0; all inputs have an index for each corner, and inputs of the
same offset have the same. -/
structure GoodSet (M : GMesh) (P : GSet) : Prop where
  prim : P.prim ≠ .points
  faces : ∃ fs, FPoly.Repr P.polys fs
  perVertex : (P.inputs.filter fun x => perVertex M x.source).map (fun x => (x.source, x.set, x.offset)) = M.vertex.map fun s => (some s, -1, 0)
  others : ∀ x ∈ P.inputs, Verif.FArc.perVertex M x.source = false → GoodInput M x
  full : ∀ v ∈ views P.inputs, v.2.2.2.length = P.counts.sum ∧ ∀ n ∈ v.2.2.2, n < 2 ^ 32
  shared : ∀ v ∈ views P.inputs, ∀ w ∈ views P.inputs, v.2.2.1 = w.2.2.1 → v.2.2.2 = w.2.2.2
  small : P.counts.length < 2 ^ 32 ∧ P.counts.sum < 2 ^ 32
  material : Plain P.material
  extra : Saveable P.extra

/-- The extra tree after loading: an extra without child nodes is not written. -/
def keptExtra (e : FExtra.Extra) : FExtra.Extra := if FExtra.hasContent e then e else FExtra.newExtra

end Verif.FArc
