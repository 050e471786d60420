import Mathlib.Data.Rat.Floor
import Mathlib.Algebra.Order.Floor.Semiring
import Mathlib.Tactic.Linarith
import Mathlib.Tactic.FieldSimp

/-!
# Model of the sampling of the animations of a scene node (FCDocument/FCDSceneNodeTools.cpp)

Numbers are rational, without rounding. Of the curves of an animated value only the first one for each float is read (lines 62-63), so the others are left out. The times and matrices are static variables, which are cleared at the start
(lines 24-25).
-/

namespace Verif.FSample

/-- A key of a curve: its time and its value. -/
abbrev Key := ℚ × ℚ

/-- FMFloat.h 24: the tolerance. -/
def tol : ℚ := 1 / 10000

/-- FMFloat.h 29: `IsEquivalent`. -/
def near (a b : ℚ) : Bool := decide (a - b < tol ∧ b - a < tol)

/-- FCDSceneNodeTools.cpp 68-83: the times of a curve are merged into the sorted sample times. -/
def merge : List ℚ → List ℚ → List ℚ
  | [], cs => cs
  | ss, [] => ss
  | s :: ss, c :: cs => if near s c then s :: merge ss cs else if s < c then s :: merge ss (c :: cs) else c :: merge (s :: ss) cs
termination_by ss cs => ss.length + cs.length

/-- FCDSceneNodeTools.cpp 105-114: a time is added in front of the first later one, unless an equivalent one comes before that. -/
def insertTime (t : ℚ) : List ℚ → List ℚ
  | [] => []
  | s :: ss => if near s t then s :: ss else if s > t then t :: s :: ss else s :: insertTime t ss

/-- FCDSceneNodeTools.cpp 92-94: the number of half turns from one key to the next one. -/
def halfTurns (p c : Key) : ℚ := |(c.2 - p.2) / 180|

/-- FCDSceneNodeTools.cpp 95-102: the times to add between two keys. -/
def wrapTimes (p c : Key) : List ℚ :=
  if halfTurns p c ≥ 1 then (List.range ⌊halfTurns p c⌋₊).map fun (i : Nat) => (c.1 * ((i : ℚ) + 1) + p.1 * ((⌊halfTurns p c⌋₊ : ℚ) - i)) / ((⌊halfTurns p c⌋₊ : ℚ) + 1) else []

/-- FCDSceneNodeTools.cpp 86-119: the times added for large rotations. -/
def addWraps : List Key → List ℚ → List ℚ
  | p :: c :: ks, s => addWraps (c :: ks) ((wrapTimes p c).foldl (fun s t => insertTime t s) s)
  | _, s => s

/-- A transform: the first curve of each of its floats, and the float with the angle if it is a rotation that has one, -1 otherwise (FCDSceneNodeTools.cpp 42-43). -/
structure Transf where
  curves : List (Option (List Key))
  angle : Int

/-- FCDAnimated.cpp 167-172: `HasCurve`. -/
def Transf.hasCurve (t : Transf) : Bool := t.curves.any Option.isSome

/-- FCDSceneNodeTools.cpp 32-46: the animated values, each with the entry of `angleIndices` at its position. `GetAnimated` makes an animated value if there is none (FCDParameterAnimatable.cpp 34-43), so all transforms have an entry
there, but only those with curves are in the list of the animated values. -/
def collected (ts : List Transf) : List (Transf × Int) := (ts.filter Transf.hasCurve).zip (ts.map Transf.angle)

/-- FCDSceneNodeTools.cpp 57-119: one float of an animated value. -/
def sampleCurve (angle : Int) (s : List ℚ) (x : Option (List Key) × Nat) : List ℚ :=
  match x.1 with
  | none => s
  | some ks => if angle = x.2 then addWraps ks (merge s (ks.map (·.1))) else merge s (ks.map (·.1))

/-- FCDSceneNodeTools.cpp 51-121: the floats of an animated value. -/
def sampleAnimated (s : List ℚ) (a : Transf × Int) : List ℚ := a.1.curves.zipIdx.foldl (sampleCurve a.2) s

/-- FCDSceneNodeTools.cpp 23-121: the sample times of a node with these transforms. -/
def sampleTimes (ts : List Transf) : List ℚ := (collected ts).foldl sampleAnimated []

/-- FCDSceneNodeTools.cpp 128-139: the node is set to each time in turn and its matrix is kept: the node afterwards and the matrices. -/
def sampleValues {S M : Type} (eval : ℚ → S → S) (mat : S → M) (keys : List ℚ) (node : S) : S × List M := keys.foldl (fun s t => (eval t s.1, s.2 ++ [mat (eval t s.1)])) (node, [])

end Verif.FSample
