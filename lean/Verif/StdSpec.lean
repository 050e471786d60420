import Verif.Std
import Verif.XformSpec
import Verif.GeoRotSpec
import Verif.IterSpec

/-! # What a change of the up-axis and of the unit means -/

namespace Verif.FStd

open Verif.Geo Verif.FXform

/-- The unit vector of an axis. -/
def Axis.vector : Axis → V3 ℝ
  | .x => ⟨1, 0, 0⟩
  | .y => ⟨0, 1, 0⟩
  | .z => ⟨0, 0, 1⟩
  | .unknown => ⟨0, 0, 0⟩

/-- A map of space that is linear and keeps scalar products and vector products: a rotation. -/
structure IsRotation (f : V3 ℝ → V3 ℝ) : Prop where
  add : ∀ a b, f (a.add b) = (f a).add (f b)
  smul : ∀ k a, f (V3.smul k a) = V3.smul k (f a)
  dot : ∀ a b, (f a).dot (f b) = a.dot b
  cross : ∀ a b, f (a.cross b) = (f a).cross (f b)

/-- Where a point is found in the new coordinates. -/
noncomputable def Conv.moved (c : Conv) (p : V3 ℝ) : V3 ℝ := V3.smul c.factor (c.turn p)

/-- The matrix `m'` does in the new coordinates what `m` does in the old ones. -/
def Carries (c : Conv) (m m' : M44 ℝ) : Prop := ∀ p, m'.transformCoordinate (c.moved p) = c.moved (m.transformCoordinate p)

/-- The transforms the conversion is correct for: not a look-at, a rotation around an axis that has a direction, an affine matrix. -/
def Plain : Value → Prop
  | .lookAt _ _ _ => False
  | .rotation a _ => a.lengthSquared ≠ 0
  | .matrix m => m.Affine
  | _ => True

/-- The factor is 1, or it differs from 1 by what is taken for a difference. -/
def Conv.Clear (c : Conv) : Prop := c.factor = 1 ∨ 1 / 10000 ≤ |c.factor - 1|

/-- The conversion of a whole document: from the values of its asset. -/
noncomputable def Job.conv (j : Job) : Conv := assetFunctors j.target j.unit [j.doc] j.library

/-- An asset that says nothing on units and axes. -/
def Silent (a : Option Asset) : Prop := ∀ b, a = some b → b.unit = none ∧ b.up = none

/-- The scenes of a document: different nodes without parents. -/
def Scenes (w : FScene.World) (scenes : List Nat) : Prop := scenes.Nodup ∧ ∀ r ∈ scenes, ∃ a, w.nodes r = some a ∧ a.parents = []

/-- The node is in one of the scenes. -/
def InScene (w : FScene.World) (insts : Nat → List (Option Nat)) (scenes : List Nat) (x : Nat) : Prop :=
  ∃ r ∈ scenes, FIter.Below (FIter.kids (FIter.graphOf w insts) true) r x

/-- The point at a position of the data of a source. -/
def PointAt (data : List ℝ) (i : Nat) (p : V3 ℝ) : Prop := data[i]? = some p.x ∧ data[i + 1]? = some p.y ∧ data[i + 2]? = some p.z

/-- A source in the new coordinates: positions are moved, normals and tangents are turned, other data stay. -/
def SourceMoved (c : Conv) (a b : Source × Nat × List ℝ) : Prop :=
  b.1 = a.1 ∧ b.2.1 = a.2.1 ∧ b.2.2.length = a.2.2.length ∧
    (a.1 = .other → b.2.2 = a.2.2) ∧
    (3 ≤ a.2.1 → ∀ k < a.2.2.length / a.2.1, ∀ p, PointAt a.2.2 (k * a.2.1) p →
      (a.1 = .position → PointAt b.2.2 (k * a.2.1) (c.moved p)) ∧ (a.1 = .normal → PointAt b.2.2 (k * a.2.1) (c.turn p)))

/-- A geometry in the new coordinates. -/
inductive ShapeMoved (c : Conv) : Shape → Shape → Prop where
  | mesh {l l'} : List.Forall₂ (SourceMoved c) l l' → ShapeMoved c (.mesh l) (.mesh l')
  | splines (l) : ShapeMoved c (.splines l) (.splines (l.map (List.map c.moved)))
  | other : ShapeMoved c .other .other

/-- A document without assets but its own: those of the nodes say nothing, and there are no others. -/
structure Uniform (d : Doc) : Prop where
  nodes : ∀ x, Silent (d.nodes.asset x)
  scene : d.sceneAsset = none
  skin : d.skinAsset = none
  geom : d.geomAsset = none
  camera : d.cameraAsset = none
  skins : ∀ s ∈ d.skins, s.asset = none
  geoms : ∀ g ∈ d.geoms, g.asset = none
  cameras : ∀ k ∈ d.cameras, k.asset = none

/-- No source has a stride of zero. -/
def Strides (d : Doc) : Prop := ∀ g ∈ d.geoms, ∀ l, g.shape = .mesh l → ∀ x ∈ l, x.2.1 ≠ 0

/-- The conversion a call asks for, in such a document. -/
noncomputable def Doc.conv (d : Doc) (up : V3 ℝ) (unit : ℝ) : Conv :=
  assetFunctors (convertVector (wantedAxis up d.asset)) (wantedUnit unit d.asset) [d.asset] none

/-- The inverse of a bind-pose that can be inverted, and whose inverse can. -/
def Invertible (b : M44 ℝ) : Prop := b.Affine ∧ 1 / 2 ^ 52 < |b.determinant| ∧ |b.determinant| < 2 ^ 52

/-- The rotations that are nearly pivots are pivots. -/
def ExactRotations (ts : List Entry) : Prop :=
  ∀ e ∈ ts, ∀ a x, e.1.value = .rotation a x → ∀ b y, (b = ⟨1, 0, 0⟩ ∨ b = ⟨0, 0, 1⟩) → (y = 90 ∨ y = -90) → Near a b → |x - y| < 1 / 10000 → a = b ∧ x = y

/-- A look-at whose directions are not nearly parallel. -/
structure Looks (p t u : V3 ℝ) : Prop where
  apart : (t.sub p).lengthSquared ≠ 0
  up : ¬ Near (t.sub p).normalize u
  down : ¬ Near (t.sub p).normalize u.neg
  cross : ((t.sub p).normalize.cross u).lengthSquared ≠ 0

/-- The transforms without the flags. -/
abbrev stack (ts : List Entry) : List Transform := ts.map Prod.fst

/-- The place of a vertex of a skin: the weighted sum over the joints (weight, world matrix, inverse of the bind-pose). -/
noncomputable def skinned (shape : M44 ℝ) (joints : List (ℝ × M44 ℝ × M44 ℝ)) (p : V3 ℝ) : V3 ℝ :=
  joints.foldr (fun j acc => (V3.smul j.1 ((j.2.1.mul (j.2.2.mul shape)).transformCoordinate p)).add acc) ⟨0, 0, 0⟩

end Verif.FStd
