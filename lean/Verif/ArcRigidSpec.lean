import Verif.ArcRigid
import Verif.ArcTransSpec
import Verif.ArcLemmas

/-! # What rigid constraints should be after saving and loading -/

namespace Verif.FArc

open Verif.FEff (Text text)
open Verif.FConv (shown)

/-- The transform is a rotation. -/
def isRotation : Trans → Bool
  | .rotation _ _ => true
  | _ => false

/-- The transform is a translation. -/
def isTranslation : Trans → Bool
  | .translation _ => true
  | _ => false

/-- The rotations, and then the translations. -/
def sortedPlaces (ts : List Trans) : List Trans := ts.filter isRotation ++ ts.filter isTranslation

/-- The end can be found from its text: a rigid body is the first one of its sub-id; a scene node is in the document and no rigid body has its id as sub-id; if there is no end, nothing is called by the empty text. -/
def GoodAttach (bodies nodes : List Text) : Attach → Prop
  | .body i => ∃ t, bodies[i]? = some t ∧ Plain t ∧ ∀ (j : Nat), j < i → bodies[j]? ≠ some t
  | .node id => Plain id ∧ id ∈ nodes ∧ id ∉ bodies
  | .nothing => [] ∉ nodes ∧ [] ∉ bodies

/-- A flag. -/
def IsFlag (q : ℚ) : Prop := q = 0 ∨ q = 1

/-- The names of the elements of a rigid constraint. -/
def constraintNames : List Text := [text "ref_attachment", text "attachment", text "technique_common", text "spring"]

end Verif.FArc
