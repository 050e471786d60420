import Verif.ArcSpline

/-!
# What a user expects of splines that are saved and loaded
-/

namespace Verif.FArc

open Verif.FEff (Text text)

/-- The spline fits the file: control vertices of three numbers, numbers of values and a degree that 32 bits hold. -/
structure GoodSpline (s : QSpline) : Prop where
  three : ∀ v ∈ s.cvs, v.length = 3
  count : s.cvs.length < 2 ^ 32
  nurbs : ∀ d ws ks, s.kind = .nurbs d ws ks → ws.length < 2 ^ 32 ∧ ks.length < 2 ^ 32 ∧ ∃ e, d = some e ∧ e < 2 ^ 32

/-- `IsValid`, on which the class of the spline decides. -/
def validSpline (fatal : Bool) (s : QSpline) : Bool := match s.kind with
  | .linear => FSpline.linearValid s
  | .bezier => FSpline.bezierValid fatal s
  | .nurbs d ws ks => FSpline.nurbsValid d ws ks s.cvs == some true

/-- The spline as the file shows it: numbers are shown, the name is gone and the form is open or closed. -/
def shownSpline (show_ : ℚ → ℚ) (s : QSpline) : QSpline :=
  { kind := match s.kind with
      | .linear => .linear
      | .bezier => .bezier
      | .nurbs d ws ks => .nurbs d (ws.map show_) (ks.map show_)
    form := if s.form = 1 then 1 else 0
    name := []
    cvs := s.cvs.map (·.map show_) }

end Verif.FArc
