import Verif.ArcLink
import Verif.ArcAnimSpec

/-! # What the linking of animation channels should do -/

namespace Verif.FArc

open Verif.FEff (Text text)
open Verif.Enum (Interpolation)

variable {C : Type}

mutual
/-- All channels of an animation and of the animations below it. -/
def LAnim.all : LAnim C → List (LChan C)
  | .node chs kids => chs ++ LAnim.allOf kids
/-- All channels of some animations. -/
def LAnim.allOf : List (LAnim C) → List (LChan C)
  | [] => []
  | a :: as => a.all ++ LAnim.allOf as
end

/-- As many qualifiers and lists of curves as floats. -/
def SameCount (a : FAnim.Anim C) : Prop := a.qualifiers.length = a.values.length ∧ a.curves.length = a.values.length

/-- The qualifiers tell the floats of a value apart: it is a value of its own whose qualifiers differ and are not empty, or a single float with or without a qualifier, or a single float in an array. -/
def WellNamed (a : FAnim.Anim C) : Prop :=
  (a.elem = -1 ∧ a.qualifiers.Nodup ∧ (∀ q ∈ a.qualifiers, q ≠ [] ∨ a.qualifiers.length = 1)) ∨
    ((0 ≤ a.elem ∧ a.elem + 48 < 2 ^ 31) ∧ a.qualifiers.length = 1 ∧ ∀ q ∈ a.qualifiers, 0 ∉ q)

/-- The curves of `xs` appended to those of the floats they name. -/
def withCurves (a : FAnim.Anim C) (xs : List (Nat × C)) : FAnim.Anim C :=
  { a with curves := a.curves.mapIdx fun i cs => cs ++ (xs.filter fun x => decide (x.1 = i)).map (·.2) }

/-! ## Values saved and loaded -/

/-- A curve and its driver. -/
abbrev Driven := ACurve × Option (Text × Int)

/-- FAXAnimationExport.cpp 271-293: the curves of an animated value with what they drive, float by float. -/
def placed (a : FAnim.Anim Driven) : List APlaced :=
  (a.curves.zipIdx).flatMap fun x => x.1.map fun (c : Driven) => { toACurve := c.1, elem := a.elem, qual := (a.qualifiers[x.2]?).getD [], driver := c.2 }

/-- An animated value as it is made when its file is loaded: without curves. -/
def blank {D : Type} (a : FAnim.Anim C) : FAnim.Anim D := { values := a.values, qualifiers := a.qualifiers, curves := a.curves.map fun _ => [], elem := a.elem }

/-- A loaded channel as it is linked. -/
def AChan.link (ch : AChan) : LChan ACurve := { pointer := ch.pointer, qual := ch.qual, curves := ch.curves, driver := ch.driver }

/-- A curve as it comes back when its interpolations are read correctly. -/
def shownCurve (rnd : ℚ → ℚ) (c : ACurve) : ACurve := ⟨c.keys.map (shownKey rnd), c.pre, c.post⟩

/-- Two animated values with the same pointer are different elements of an array. -/
def Distinct (v w : Text × FAnim.Anim Driven) : Prop := v.1 = w.1 → 0 ≤ v.2.elem ∧ 0 ≤ w.2.elem ∧ v.2.elem ≠ w.2.elem

end Verif.FArc
