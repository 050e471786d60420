import Mathlib.Algebra.Field.Defs
import Verif.Effect

/-!
# Model of splines (FCDocument/FCDGeometrySpline.cpp and .h, FCDGeometry.cpp)

A position is of any type `P`, a number of any type `K`. Objects are values here: the splines of a geometry are owned by it. The flags of changed objects are left out. `none` is undefined behaviour.
-/

namespace Verif.FSpline

open Verif.FEff (Text text)

variable {P K : Type}

/-- FCDGeometrySpline.h: the three classes, with the fields of a NURBS spline; its degree is not set by the constructor (FCDGeometrySpline.cpp 189-192), `none` until it is set. -/
inductive Kind (K : Type) where
  | linear
  | bezier
  | nurbs (degree : Option Nat) (weights knots : List K)
deriving DecidableEq

/-- FCDGeometrySpline.h 33-43: a spline; `form` is OPEN (0), CLOSED (1) or UNKNOWN (2), FUDaeEnum.h 85-93. -/
structure Spline (P K : Type) where
  kind : Kind K
  form : Nat := 0
  name : Text := []
  cvs : List P := []
deriving DecidableEq

/-- FCDGeometrySpline.h 67: `IsClosed`. -/
def Spline.closed (s : Spline P K) : Bool := s.form == 1

/-- FCDGeometrySpline.h 71: `SetClosed`. -/
def Spline.setClosed (s : Spline P K) (b : Bool) : Spline P K := { s with form := if b then 1 else 0 }

/-- `GetSplineType`, FUDaeEnum.h 60-68. -/
def Kind.type : Kind K → Nat
  | .linear => 0
  | .bezier => 1
  | .nurbs _ _ _ => 2

/-- FUDaeEnum.h 66: UNKNOWN. -/
def unknown : Nat := 3

/-- FCDGeometrySpline.cpp 94-97: `IsValid` of a linear spline. -/
def linearValid (s : Spline P K) : Bool := decide (2 ≤ s.cvs.length)

/-- FCDGeometrySpline.cpp 173-181: `IsValid` of a Bezier spline; `fatal` tells whether a warning is fatal (FUError.cpp 44). -/
def bezierValid (fatal : Bool) (s : Spline P K) : Bool := if s.cvs.length = 0 then !fatal else true

/-- FCDGeometrySpline.cpp 228-250: `IsValid` of a NURBS spline; the subtraction at 243 is in 64 bits without sign, the degree has 32 bits. `none` when the degree was not set. -/
def nurbsValid (degree : Option Nat) (weights knots : List K) (cvs : List P) : Option Bool :=
  degree.map fun d =>
    decide (cvs.length ≠ 0) && decide (cvs.length = weights.length) && decide (cvs.length = (knots.length + 2 ^ 64 - d % 2 ^ 32 + 2 ^ 64 - 1) % 2 ^ 64)

/-- FCDGeometrySpline.cpp 75-91: the loop of `ToBezier`, from the index `i` on. -/
def bezierCVs (closed : Bool) (count : Nat) : List P → Nat → List P
  | [], _ => []
  | cv :: l, i =>
    if !closed && (i == 0 || i == count - 1) then [cv, cv] ++ bezierCVs closed count l (i + 1)
    else [cv, cv, cv] ++ bezierCVs closed count l (i + 1)

/-- FCDGeometrySpline.cpp 60-92: `ToBezier` of a linear spline into `b`. -/
def toBezier (s b : Spline P K) : Spline P K :=
  if !linearValid s then b
  else { b with form := if s.closed then 1 else b.form, cvs := bezierCVs s.closed s.cvs.length s.cvs 0 }

/-- FCDGeometrySpline.cpp 219-226: `AddCV` of a NURBS spline. -/
def addCV [Zero K] [LT K] [DecidableLT K] (s : Spline P K) (cv : P) (w : K) : Spline P K × Bool :=
  match s.kind with
  | .nurbs d ws ks => if w < 0 then (s, false) else ({ s with cvs := s.cvs ++ [cv], kind := .nurbs d (ws ++ [w]) ks }, true)
  | _ => (s, false)

/-- FCDGeometrySpline.cpp 127-147, 153-169: the NURBS spline made from four control vertices. -/
def nurbsOf [Zero K] [One K] (a b c d : P) : Spline P K := ⟨.nurbs (some 3) [1, 1, 1, 1] [0, 0, 0, 0, 1, 1, 1, 1], 0, [], [a, b, c, d]⟩

/-- FCDGeometrySpline.cpp 125-148: the loop of `ToNURBs`, with the number of turns left and `curCV`. -/
def nurbsLoop [Zero K] [One K] (cvs : List P) : Nat → Nat → Option (List (Spline P K))
  | 0, _ => some []
  | n + 1, i =>
    cvs[i]?.bind fun a => cvs[i + 1]?.bind fun b => cvs[i + 2]?.bind fun c => cvs[i + 3]?.bind fun d =>
      (nurbsLoop cvs n (i + 3)).map fun l => nurbsOf a b c d :: l

/-- FCDGeometrySpline.cpp 114-171: `ToNURBs`: the splines added to the list. -/
def toNURBs [Zero K] [One K] (s : Spline P K) : Option (List (Spline P K)) :=
  let n := s.cvs.length
  if !s.closed then nurbsLoop s.cvs ((n - 1) / 3) 0
  else
    (nurbsLoop s.cvs (n / 3 - 1) 1).bind fun l =>
      if n < 2 then none
      else
        s.cvs[n - 2]?.bind fun a => s.cvs[n - 1]?.bind fun b => s.cvs[0]?.bind fun c => s.cvs[1]?.map fun d => l ++ [nurbsOf a b c d]

/-- FCDGeometrySpline.cpp 34-43, 200-217: `Clone` into a given spline; the degree that was never set is copied as such (an indeterminate value in C++). -/
def Spline.cloneInto (s d : Spline P K) : Spline P K :=
  { kind := match s.kind, d.kind with
      | .nurbs g w k, .nurbs _ _ _ => .nurbs g w k
      | _, x => x
    form := s.form, name := s.name, cvs := s.cvs }

/-- The changes made to one spline through its class. -/
inductive Edit (P K : Type) where
  | setName (n : Text)
  | setClosed (b : Bool)
  | clearCVs
  | addCV (cv : P)
  | addWeighted (cv : P) (w : K)
  | setDegree (d : Nat)
  | addKnot (k : K)

/-- FCDGeometrySpline.h 211: `SetDegree`. -/
def setDegree (s : Spline P K) (d : Nat) : Spline P K :=
  match s.kind with
  | .nurbs _ w k => { s with kind := .nurbs (some d) w k }
  | _ => s

/-- FCDGeometrySpline.h 230: `AddKnot`. -/
def addKnot (s : Spline P K) (x : K) : Spline P K :=
  match s.kind with
  | .nurbs d w k => { s with kind := .nurbs d w (k ++ [x]) }
  | _ => s

/-- FCDGeometrySpline.h 129, 166: `AddCV` of a linear or a Bezier spline. -/
def addPlain (s : Spline P K) (cv : P) : Spline P K :=
  match s.kind with
  | .nurbs _ _ _ => s
  | _ => { s with cvs := s.cvs ++ [cv] }

/-- FCDGeometrySpline.h 63, 71, 89 and the functions above; a function the class does not have does nothing. -/
def edit [Zero K] [LT K] [DecidableLT K] (s : Spline P K) : Edit P K → Spline P K
  | .setName n => { s with name := n }
  | .setClosed b => s.setClosed b
  | .clearCVs => { s with cvs := [] }
  | .addCV cv => addPlain s cv
  | .addWeighted cv w => (addCV s cv w).1
  | .setDegree d => setDegree s d
  | .addKnot k => addKnot s k

/-- FCDGeometrySpline.h: a geometric spline. -/
structure Geo (P K : Type) where
  type : Nat := unknown
  splines : List (Spline P K) := []

/-- FCDGeometrySpline.cpp 302-310: the new spline of a type. -/
def newSpline : Nat → Option (Spline P K)
  | 0 => some { kind := .linear }
  | 1 => some { kind := .bezier }
  | 2 => some { kind := .nurbs none [] [] }
  | _ => none

/-- FCDGeometrySpline.cpp 294-315: `AddSpline`; the result and the new spline, if any. -/
def addSpline (g : Geo P K) (type : Nat) : Geo P K × Option (Spline P K) :=
  let t := if type = unknown then g.type else type
  if type ≠ unknown ∧ type ≠ g.type then (g, none)
  else match newSpline t with
    | none => (g, none)
    | some s => ({ g with splines := g.splines ++ [s] }, some s)

/-- FCDGeometrySpline.cpp 286-292: `SetType`. -/
def setType (_ : Geo P K) (type : Nat) : Geo P K := { type := type, splines := [] }

/-- FCDGeometrySpline.cpp 317-325: `GetTotalCVCount`. -/
def totalCVs (g : Geo P K) : Nat := g.splines.foldl (fun n s => n + s.cvs.length) 0

/-- FCDGeometrySpline.cpp 277-281: one turn of the loop of `Clone`; `none` when there is no new spline: the call `Clone(NULL)` does nothing (36, 203). -/
def cloneStep (c : Geo P K) (s : Spline P K) : Geo P K :=
  match addSpline c unknown with
  | (_, none) => c
  | (_, some d) => { c with splines := c.splines ++ [s.cloneInto d] }

/-- FCDGeometrySpline.cpp 271-284: `Clone` into a given geometric spline, whose splines stay. -/
def Geo.cloneInto (g c : Geo P K) : Geo P K := g.splines.foldl cloneStep { c with type := g.type }

/-- FCDGeometrySpline.cpp 271-284: `Clone(NULL)`. -/
def Geo.clone (g : Geo P K) : Geo P K := g.cloneInto {}

/-- FCDGeometrySpline.cpp 335-336: the cast to a Bezier spline (undefined for another class) and `ToNURBs`. -/
def convertOne [Zero K] [One K] (s : Spline P K) : Option (List (Spline P K)) :=
  if s.kind.type = 1 then toNURBs s else none

/-- FCDGeometrySpline.cpp 333-337: the loop of `ConvertBezierToNURBS`. -/
def convertLoop [Zero K] [One K] : List (Spline P K) → Option (List (Spline P K))
  | [] => some []
  | s :: l => (convertOne s).bind fun a => (convertLoop l).map fun b => a ++ b

/-- FCDGeometrySpline.cpp 327-340: `ConvertBezierToNURBS`: the splines added to the list. -/
def convert [Zero K] [One K] (g : Geo P K) : Option (List (Spline P K)) :=
  if g.type ≠ 1 then some [] else convertLoop g.splines

/-- The operations on a geometric spline. -/
inductive Op (P K : Type) where
  | setType (t : Nat)
  | addSpline (t : Nat)
  | edit (i : Nat) (e : Edit P K)
  | release (i : Nat)

/-- The operations on a geometric spline; a released spline leaves the container. -/
def step [Zero K] [LT K] [DecidableLT K] (g : Geo P K) : Op P K → Geo P K
  | .setType t => setType g t
  | .addSpline t => (addSpline g t).1
  | .edit i e => { g with splines := g.splines.modify i fun s => edit s e }
  | .release i => { g with splines := g.splines.eraseIdx i }

/-- FCDGeometry.h: what a geometry holds; a mesh is of any type `M`. -/
structure Geometry (M P K : Type) where
  mesh : Option M := none
  spline : Option (Geo P K) := none

/-- FCDGeometry.cpp 38-44: `CreateMesh`. -/
def createMesh {M : Type} (m : M) (_ : Geometry M P K) : Geometry M P K := ⟨some m, none⟩

/-- FCDGeometry.cpp 47-53: `CreateSpline`. -/
def createSpline {M : Type} (_ : Geometry M P K) : Geometry M P K := ⟨none, some {}⟩

/-- FCDGeometry.cpp 56-79: `Clone(NULL)`; `cm` gives the copy of a mesh (C84). -/
def Geometry.clone {M : Type} (cm : M → M) (g : Geometry M P K) : Geometry M P K :=
  match g.mesh with
  | some m => ⟨some (cm m), none⟩
  | none => match g.spline with
    | some s => ⟨none, some s.clone⟩
    | none => {}

end Verif.FSpline
