import Verif.Poly

/-! # Polygon sets as lists of faces with holes -/

namespace Verif.FPoly

/-- A face: the number of its corners, and of those of each of its holes. -/
abbrev Face := Nat × List Nat

/-- The corners of a face and its holes. -/
def faceSize (f : Face) : Nat := f.1 + f.2.sum

/-- The list of face-vertex counts of some faces. -/
def toCounts (fs : List Face) : List Nat := fs.flatMap fun f => f.1 :: f.2

/-- The positions of the holes among the face-vertex counts, when the first face is at `start`. -/
def toHoles (start : Nat) : List Face → List Nat
  | [] => []
  | f :: fs => List.range' (start + 1) f.2.length ++ toHoles (start + 1 + f.2.length) fs

/-- The polygon set has these faces. -/
def Repr (P : Polys) (fs : List Face) : Prop := P.counts = toCounts fs ∧ P.holes = toHoles 0 fs

/-- The triangles of a polygon or a fan whose `n` corners start at `off`: each has the first corner and two consecutive other corners. -/
def fan (off n : Nat) : List Nat := (List.range (n - 2)).flatMap fun t => [off, off + (t + 1), off + (t + 2)]

/-- The triangles of a strip: three consecutive corners each, the last two swapped in every second triangle. -/
def strip (off n : Nat) : List Nat :=
  (List.range (n - 2)).flatMap fun t => if t % 2 = 0 then [off + t, off + (t + 1), off + (t + 2)] else [off + t, off + (t + 2), off + (t + 1)]

/-- The corners of the triangles of all faces, as positions in the old index lists; holes and faces with less than three corners have none. -/
def triCorners (tri : Nat → Nat → List Nat) : Nat → List Face → List Nat
  | _, [] => []
  | off, f :: fs => (if f.1 < 3 then [] else tri off f.1) ++ triCorners tri (off + faceSize f) fs

/-- What a program does with a polygon set. -/
inductive Op where
  | addInput (offset : Nat)
  | addFace (degree : Nat)
  | addHole (index : Nat)
  | setIndices (i : Nat) (l : List (Option Nat))
  | setPrim (p : Prim)
  | removeFace (index : Nat)
  | triangulate

def run (P : Polys) : Op → Option Polys
  | .addInput offset => some (addInput P offset)
  | .addFace degree => some (addFace P degree)
  | .addHole index => some (addHole P index)
  | .setIndices i l => some { P with inputs := setIndices P.inputs i l }
  | .setPrim p => some { P with prim := p }
  | .removeFace index => removeFace P index
  | .triangulate => triangulate P

/-- The uses covered: faces have corners; the first face-vertex count is not a hole; a list of indices given to an input has one index for each
corner; an input with a new offset is added before the faces; the face removed is the first one, of a set without holes. -/
def Legal (P : Polys) : Op → Prop
  | .addInput offset => P.counts = [] ∨ ∃ x ∈ P.inputs, x.offset = offset
  | .addFace degree => 0 < degree
  | .addHole index => 0 < index ∧ index < P.counts.length
  | .setIndices i l => i < P.inputs.length ∧ l.length = P.counts.sum
  | .setPrim _ => True
  | .removeFace index => index = 0 ∧ P.holes = []
  | .triangulate => True

/-- The polygon sets a program can build. -/
inductive Reach : Polys → Prop where
  | start : Reach empty
  | step {P op P'} : Reach P → Legal P op → run P op = some P' → Reach P'

end Verif.FPoly
