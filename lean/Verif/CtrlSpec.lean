import Verif.Ctrl
import Mathlib.Logic.Relation

/-!
# Specification of controllers (C107, C108)
-/

namespace Verif.FCtrl

/-- The controller `c` deforms the entity `x`: that is the target of its skin or the base target of its morpher. -/
def On (w : World) (c x : Nat) : Prop := (∃ k, w c = some (.ctrl (.skin (some x) k))) ∨ ∃ ts, w c = some (.ctrl (.morph (some x) ts))

/-- `x` is `y`, or a controller that deforms it, directly or through other controllers. -/
def Above (w : World) : Nat → Nat → Prop := Relation.ReflTransGen (On w)

/-- `x` is a controller. -/
def IsCtrl (w : World) (x : Nat) : Prop := ∃ c, w x = some (.ctrl c)

/-- The controller `s` has a skin. -/
def IsSkin (w : World) (s : Nat) : Prop := ∃ t k, w s = some (.ctrl (.skin t k))

/-- `x` is a geometry. -/
def IsGeom (w : World) (x : Nat) : Prop := ∃ g, w x = some (.geom g)

/-- `g` is the geometry at the end of the chain of controllers that starts with `x`. -/
def Bottom (w : World) (x g : Nat) : Prop := Above w x g ∧ IsGeom w g

/-- The geometries have the same number of vertices and are of the same kind. -/
def SameShape : Geom → Geom → Prop
  | .mesh p, .mesh q => ∃ k, q = some k ∧ (p = some k ∨ (p = none ∧ k = 0))
  | .spline a, .spline b => a = b
  | _, _ => False

/-- `g` is a geometry with the shape of that below `b`. -/
def Similar (w : World) (b g : Nat) : Prop := ∃ x X y Y, Bottom w b x ∧ w x = some (.geom X) ∧ Bottom w g y ∧ w y = some (.geom Y) ∧ SameShape X Y

/-- The geometry of the morph target has the shape of that below `b`. -/
def Fits (w : World) (b : Nat) (t : Target) : Prop := ∃ g, t.geometry = some g ∧ Similar w b g

/-- The calls a program may make: objects and arguments exist; a skin is not put on something that is above it; morph targets of
one morpher have different identities; a morph target that is the only tracker of its geometry is not given it again. -/
def Legal (w : World) : Op → Prop
  | .newGeometry x _ => w x = none
  | .newController x => w x = none
  | .newOther x => w x = none
  | .createSkin c => IsCtrl w c
  | .createMorph c => IsCtrl w c
  | .setTarget c e => (∃ t k, w c = some (.ctrl (.skin t k))) ∧ ∀ x, e = some x → (w x).isSome ∧ ¬ Above w x c
  | .setBaseTarget c e => (∃ b ts, w c = some (.ctrl (.morph b ts))) ∧ ∀ x, e = some x → (w x).isSome
  | .addTarget c t g => (∃ b ts, w c = some (.ctrl (.morph b ts)) ∧ ∀ x ∈ ts, x.name ≠ t) ∧ ∀ x, g = some x → IsGeom w x
  | .setGeometry c t sole g =>
    (∃ b ts, w c = some (.ctrl (.morph b ts)) ∧ (∃ x ∈ ts, x.name = t) ∧ ∀ x ∈ ts, x.name = t → sole = true → x.geometry ≠ g ∨ g = none) ∧ ∀ x, g = some x → IsGeom w x
  | .edit x _ => IsGeom w x
  | .release x => (w x).isSome

/-- The call ends with the new state. -/
def Steps (w : World) (op : Op) (w' : World) : Prop := ∃ N, ∀ n ≥ N, run n w op = some w'

/-- The states that programs reach. -/
inductive Reach : World → Prop where
  | start : Reach fun _ => none
  | step {w w' : World} {op : Op} : Reach w → Legal w op → Steps w op w' → Reach w'

end Verif.FCtrl
