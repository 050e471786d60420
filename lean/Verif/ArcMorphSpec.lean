import Verif.ArcMorph
import Verif.ArcSpec

/-! # Specification of saved and loaded morphers -/

namespace Verif.FArc

open Verif.FEff (Text text)
open Verif.FConv (shown)
open Verif.FCtrl (Geom)
open Verif.Enum (MorphMethod)

/-- Two geometries of the same kind with as many vertices. -/
def SameVertices : Geom → Geom → Prop
  | .mesh p, .mesh (some k) => p.getD 0 = k
  | .spline a, .spline b => a = b
  | _, _ => False

/-- The target has a geometry of the document with the vertices of `g`. -/
def Morphs (d : MorphDoc) (g : Geom) (t : Option Text × ℚ) : Prop := ∃ i x, t.1 = some i ∧ d.geoms.lookup i = some x ∧ SameVertices g x

/-- A document whose entities have ids as FCollada makes them: not empty, not beginning with `#`, unique among geometries and controllers. -/
structure GoodIds (d : MorphDoc) : Prop where
  geoms : ∀ i ∈ d.geoms.map (·.1), i ≠ [] ∧ i.head? ≠ some 35
  ctrls : ∀ i ∈ d.ctrls.map (·.1), i ≠ [] ∧ i.head? ≠ some 35
  unique : ∀ i ∈ d.ctrls.map (·.1), i ∉ d.geoms.map (·.1)
  reserved : text "UNKNOWN_IDREF" ∉ d.geoms.map (·.1)

/-- A morpher of the document: its base and the geometries of its targets are in it, and their ids are words. -/
structure GoodMorph (d : MorphDoc) (id : Text) (m : Morph) : Prop where
  id : Plain id
  base : ∀ b, m.base = some b → Plain b.2 ∧ if b.1 then b.2 ∈ d.ctrls.map (·.1) else b.2 ∈ d.geoms.map (·.1)
  targets : ∀ t ∈ m.targets, ∀ i, t.1 = some i → Word i ∧ i ∈ d.geoms.map (·.1)
  few : m.targets.length < 2 ^ 31

/-- The targets with their weights as they are shown. -/
def shownTargets (rnd : ℚ → ℚ) (l : List (Option Text × ℚ)) : List (Option Text × ℚ) := l.map fun t => (t.1, shown rnd t.2)

/-- The base after loading: one that is a geometry is found, one that is a controller is not. -/
def baseAfter : Option (Bool × Text) → Option (Bool × Text)
  | some (false, i) => some (false, i)
  | _ => none

/-- The method after loading. -/
def methodAfter : MorphMethod → MorphMethod
  | .unknown => .normalized
  | m => m

end Verif.FArc
