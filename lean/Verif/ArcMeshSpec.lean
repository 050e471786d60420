import Verif.ArcMesh
import Verif.ArcPolySpec
import Verif.ConvMoreSpec

/-! # Which meshes can be saved, and what is loaded -/

namespace Verif.FArc

open Verif.FEff (Text text)
open Verif.FPoly (Prim Face faceSize)
open Verif.Enum (GeometryInput)

/-- A source that can be saved: its id, with which inputs refer to it, and its name can be read back; its type is one that is written; its extra tree has only the default type. -/
structure GoodSource (s : GSource) : Prop where
  id : Plain s.id ∧ s.id ≠ [] ∧ s.id.head? ≠ some 35
  name : Plain s.name
  type : s.type ≠ .vertex ∧ s.type ≠ .pointSize ∧ s.type ≠ .pointRotation
  stride : 0 < s.stride ∧ s.stride < 2 ^ 32
  data : s.data.length < 2 ^ 32
  extra : ∃ ts : List FExtra.Tech, s.extra = [⟨[], ts⟩] ∧ (ts.map (·.profile)).Nodup ∧ ∀ t ∈ ts, SaveTech t

/-- The polygon set whose per-vertex inputs have no set number. -/
def unset (M : GMesh) (P : GSet) : GSet := { P with inputs := P.inputs.map fun x => if perVertex M x.source then { x with set := -1 } else x }

/-- A mesh that can be saved: it is not given as the convex hull of another; its sources and polygon sets can be saved; a per-vertex source has the same set number (`sets`) in all polygon sets; there is one source of positions,
and it is per-vertex, with at least as many positions as any polygon without holes has corners. -/
structure GoodMesh (M : GMesh) (sets : Nat → Int) (positions : Nat) : Prop where
  own : M.convex = false ∨ M.hull = []
  plain : Plain M.id
  ids : (M.sources.map GSource.id).Nodup
  sources : ∀ src ∈ M.sources, GoodSource src
  vertex : M.vertex.Nodup ∧ ∀ s ∈ M.vertex, ∃ src, M.sources[s]? = some src ∧ src.type ≠ .unknown
  position : ∃ p ∈ M.vertex, (∀ q src, M.sources[q]? = some src → (src.type = .position ↔ q = p)) ∧ ∃ src, M.sources[p]? = some src ∧ positions = src.data.length / src.stride
  polygons : ∀ P ∈ M.sets, GoodSet M (unset M P)
  setNumber : ∀ s ∈ M.vertex, -1 ≤ sets s ∧ sets s + 48 < 2 ^ 31
  setNumbers : ∀ P ∈ M.sets, ∀ x ∈ P.inputs, ∀ s ∈ M.vertex, x.source = some s → x.set = sets s
  corners : ∀ P ∈ M.sets, P.prim = .polygons → P.holes = [] → ∀ c ∈ P.counts, c ≤ positions

/-- Whether a source is per-vertex or used by an input. -/
def used (M : GMesh) (Ps : List GSet) (s : Nat) : Bool := decide (s ∈ M.vertex) || Ps.any fun P => P.inputs.any fun x => decide (x.source = some s)

/-- The sources as they are loaded: the numbers are those shown by the text; a source that is not used has no type. -/
def loadedSources (rnd : ℚ → ℚ) (M : GMesh) (Ps : List GSet) : List GSource :=
  M.sources.mapIdx fun s src => { src with type := if used M Ps s then src.type else .unknown, data := src.data.map (FConv.shown rnd) }

/-- A polygon set and the loaded one: the kind of primitives, the faces, holes, material and extra tree are the same; the inputs of the per-vertex sources come first. -/
def SameSet (M : GMesh) (P Q : GSet) : Prop :=
  Q.prim = P.prim ∧ Q.counts = P.counts ∧ Q.holes = P.holes ∧ Q.material = P.material ∧ Q.extra = keptExtra P.extra ∧
    views Q.inputs = (views P.inputs).filter (fun v => perVertex M v.1) ++ (views P.inputs).filter (fun v => !perVertex M v.1)

/-- The polygon sets for which loading reports an error: those without faces, not made of polygons, and lines in several faces. -/
def Reported (P : GSet) : Prop := (P.prim ≠ .polygons ∧ P.counts = []) ∨ (P.prim = .lines ∧ ∃ fs, FPoly.Repr P.polys fs ∧ ∃ f ∈ fs.tail, 2 ≤ faceSize f)

end Verif.FArc
