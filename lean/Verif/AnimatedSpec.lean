import Verif.Animated
import Verif.CurveMultiSpec

/-! # What animated values should do -/

namespace Verif.FAnim

open Verif.FStr (Ch)

variable {C T V : Type}

/-- The qualifiers of COLLADA and the fields they name. -/
def official : Kind → List (String × String)
  | .float => [("", "value")]
  | .vector2 => [(".X", "x"), (".Y", "y")]
  | .vector3 => [(".X", "x"), (".Y", "y"), (".Z", "z")]
  | .color3 => [(".R", "x"), (".G", "y"), (".B", "z")]
  | .vector4 => [(".X", "x"), (".Y", "y"), (".Z", "z"), (".W", "w")]
  | .color4 => [(".R", "x"), (".G", "y"), (".B", "z"), (".A", "w")]
  | .matrix => (List.range 16).map fun n => (s!"({n / 4})({n % 4})", s!"[{n / 4}][{n % 4}]")
  | .angleAxis => [(".X", "axis.x"), (".Y", "axis.y"), (".Z", "axis.z"), (".ANGLE", "angle")]
  | .lookAt => [(".POSITIONX", "position.x"), (".POSITIONY", "position.y"), (".POSITIONZ", "position.z"), (".TARGETX", "target.x"), (".TARGETY", "target.y"),
      (".TARGETZ", "target.z"), (".UPX", "up.x"), (".UPY", "up.y"), (".UPZ", "up.z")]
  | .skew => [(".ROTATEX", "rotateAxis.x"), (".ROTATEY", "rotateAxis.y"), (".ROTATEZ", "rotateAxis.z"), (".AROUNDX", "aroundAxis.x"),
      (".AROUNDY", "aroundAxis.y"), (".AROUNDZ", "aroundAxis.z"), (".ANGLE", "angle")]

/-- The calls that change the curves. -/
inductive Op (C : Type) where
  | add (index : Nat) (curve : C)
  | addList (index : Nat) (curves : List C)
  | remove (index : Nat)
  | drop (curve : C)

/-- The model of a call. -/
def step [DecidableEq C] (a : Anim C) : Op C → Anim C
  | .add i c => (addCurve a i c).2
  | .addList i cs => (addCurves a i cs).2
  | .remove i => (removeCurve a i).2
  | .drop c => dropCurve a c

/-- The curves that the value at an index should have after a call. -/
def expected [DecidableEq C] (count i : Nat) (old : List C) : Op C → List C
  | .add j c => if i = j ∧ j < count then old ++ [c] else old
  | .addList j cs => if i = j ∧ j < count then old ++ cs else old
  | .remove j => if i = j then [] else old
  | .drop c => old.filter (· ≠ c)

/-- The floats `after` are those `before`, but that each float with a curve has the value of its first curve at the time `t`. -/
structure Sampled (eval : C → T → Option V) (t : T) (anims : List (Anim C)) (before after : Nat → V) : Prop where
  animated : ∀ a ∈ anims, ∀ (i p : Nat) (c : C), a.values[i]? = some (some p) → getCurve a i 0 = some c → eval c t = some (after p)
  other : ∀ p : Nat, (∀ a ∈ anims, ∀ i : Nat, a.values[i]? = some (some p) → getCurve a i 0 = none) → after p = before p

/-- Two curves never drive the same float, and curves can be sampled. -/
structure Coherent (eval : C → T → Option V) (t : T) (anims : List (Anim C)) : Prop where
  agree : ∀ a ∈ anims, ∀ b ∈ anims, ∀ (i j p : Nat) (c d : C), a.values[i]? = some (some p) → b.values[j]? = some (some p) → getCurve a i 0 = some c →
    getCurve b j 0 = some d → c = d
  defined : ∀ a ∈ anims, ∀ (i : Nat) (c : C), getCurve a i 0 = some c → (eval c t).isSome

/-- The documents reached from a document. -/
inductive Reaches (docs : Nat → Doc C) : Nat → Nat → Prop where
  | refl (d : Nat) : Reaches docs d d
  | step {d c e : Nat} : c ∈ (docs d).children → Reaches docs c e → Reaches docs d e

end Verif.FAnim
