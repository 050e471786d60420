import Verif.InstMat

/-!
# What the material instances and the clones of instances are to do
-/

namespace Verif.FMat

/-- `k` is the first position of the list whose text is `s`. -/
def FirstWith {α : Type} (f : α → Text) (l : List α) (s : Text) (k : Nat) : Prop :=
  (∃ x, l[k]? = some x ∧ f x = s) ∧ ∀ j < k, ∀ y, l[j]? = some y → f y ≠ s

/-- No element of the list has the text `s`. -/
def Without {α : Type} (f : α → Text) (l : List α) (s : Text) : Prop := ∀ x ∈ l, f x ≠ s

def IsDigit (c : Int) : Prop := 48 ≤ c ∧ c ≤ 57

/-- The text is empty or ends with a character that is not a digit. -/
def NoDigitAtEnd (t : Text) : Prop := ∀ c ∈ t.getLast?, ¬ IsDigit c

/-- A program that binds the materials `es` to the polygons of a mesh from position `k` on, one after the other. -/
def bindEach (ids : Nat → Text) (parent : Option Nat) : List Nat → Nat → List Mat × List PSet → Option (List Mat × List PSet)
  | [], _, st => some st
  | e :: es, k, st => (addBound ids parent st.1 st.2 (some e) (some k)).bind (bindEach ids parent es (k + 1))

/-- The same kind of instance, the same entity, effect parameters, material instances (up to what an instance says of itself), roots and joints. -/
def SameMat (a b : Mat) : Prop := a.base.entity = b.base.entity ∧ a.semantic = b.semantic ∧ a.binds = b.binds ∧ a.vbinds = b.vbinds

def SameContent : Inst → Inst → Prop
  | .plain a, .plain b => a.entity = b.entity
  | .geom a p m, .geom b p' m' => a.entity = b.entity ∧ p = p' ∧ List.Forall₂ SameMat m m'
  | .ctrl a p m r j, .ctrl b p' m' r' j' => a.entity = b.entity ∧ p = p' ∧ List.Forall₂ SameMat m m' ∧ r = r' ∧ j = j'
  | .mat a, .mat b => SameMat a b
  | _, _ => False

/-- The material instances of an instance. -/
def Inst.mats : Inst → List Mat
  | .geom _ _ m => m
  | .ctrl _ _ m _ _ => m
  | _ => []

/-- The effect parameters of an instance. -/
def Inst.params : Inst → List Nat
  | .geom _ p _ => p
  | .ctrl _ p _ _ _ => p
  | _ => []

/-- Geometry instances, controller instances among them. -/
def Inst.isGeom : Inst → Bool
  | .geom _ _ _ => true
  | .ctrl _ _ _ _ _ => true
  | _ => false

/-- The class of an instance. -/
def Inst.kind : Inst → Nat
  | .plain _ => 0
  | .geom _ _ _ => 1
  | .ctrl _ _ _ _ _ => 2
  | .mat _ => 3

end Verif.FMat
