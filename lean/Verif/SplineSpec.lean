import Mathlib.Algebra.Module.Basic
import Mathlib.Algebra.Field.Defs
import Mathlib.Algebra.BigOperators.Group.List.Basic
import Mathlib.Algebra.Order.Field.Basic
import Verif.Spline

/-!
# Curves of splines

What a cubic Bezier segment and a NURBS curve are, as in any textbook: nothing here comes from the code but the type of a spline.
-/

namespace Verif.FSpline

variable {P K : Type}

/-- The control vertices of a cubic Bezier segment. -/
structure Seg (P : Type) where
  a : P
  b : P
  c : P
  d : P
deriving DecidableEq

/-- The point of a cubic Bezier segment at `t` (Bernstein form). -/
def Seg.at [Field K] [AddCommGroup P] [Module K P] (s : Seg P) (t : K) : P :=
  (1 - t) ^ 3 • s.a + (3 * t * (1 - t) ^ 2) • s.b + (3 * t ^ 2 * (1 - t)) • s.c + t ^ 3 • s.d

/-- The segments of a list of control vertices: each takes four, the last being the first of the next. -/
def segments : List P → List (Seg P)
  | a :: b :: c :: d :: l => ⟨a, b, c, d⟩ :: segments (d :: l)
  | _ => []

/-- The segments of a closed spline which lists for every knot its in-tangent, its position and its out-tangent: it goes from the position of the first knot back to it. -/
def loopSegments : List P → List (Seg P)
  | i :: k :: l => segments (k :: l ++ [i, k])
  | _ => []

/-- The segments of a spline as written in FCDGeometrySpline.h 143-146: a closed spline uses its first vertex again at the end. -/
def docSegments (closed : Bool) : List P → List (Seg P)
  | [] => []
  | a :: l => if closed then segments (a :: l ++ [a]) else segments (a :: l)

/-- The sides of an open polygonal line. -/
def sides : List P → List (P × P)
  | a :: b :: l => (a, b) :: sides (b :: l)
  | _ => []

/-- The sides of a closed polygonal line. -/
def loopSides : List P → List (P × P)
  | [] => []
  | a :: l => sides (a :: l ++ [a])

/-- The basis function of Cox and de Boor of a degree, an index and a knot vector; a quotient with a zero denominator counts as zero, as is usual. -/
def basis [Field K] [LinearOrder K] (u : List K) : Nat → Nat → K → K
  | 0, i, t => if u.getD i 0 ≤ t ∧ t < u.getD (i + 1) 0 then 1 else 0
  | p + 1, i, t =>
    (t - u.getD i 0) / (u.getD (i + p + 1) 0 - u.getD i 0) * basis u p i t
      + (u.getD (i + p + 2) 0 - t) / (u.getD (i + p + 2) 0 - u.getD (i + 1) 0) * basis u p (i + 1) t

/-- The sum of the weights at `t`. -/
def weightAt [Field K] [LinearOrder K] (p : Nat) (w u : List K) (t : K) : K :=
  ((List.range w.length).map fun i => w.getD i 0 * basis u p i t).sum

/-- `x` is the point at `t` of the NURBS curve of degree `p` with the vertices `cvs`, the weights `w` and the knots `u`: its numbers fit, the denominator is not zero. -/
def IsNurbsPoint [Field K] [LinearOrder K] [AddCommGroup P] [Module K P] (p : Nat) (cvs : List P) (w u : List K) (t : K) (x : P) : Prop :=
  cvs.length = w.length ∧ u.length = cvs.length + p + 1 ∧ weightAt p w u t ≠ 0
    ∧ weightAt p w u t • x = ((List.range cvs.length).map fun i => (w.getD i 0 * basis u p i t) • cvs.getD i 0).sum

/-- The NURBS spline `n` is open and runs over `[0, 1)` through the same points as the Bezier segment `s`. -/
def SameCurve (K : Type) [Field K] [LinearOrder K] [AddCommGroup P] [Module K P] (s : Seg P) (n : Spline P K) : Prop :=
  n.form = 0 ∧ ∃ p w u, n.kind = .nurbs (some p) w u ∧ ∀ t : K, 0 ≤ t → t < 1 → IsNurbsPoint p n.cvs w u t (s.at t)

end Verif.FSpline
