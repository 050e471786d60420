import Verif.EntityRef

/-!
# Specification of entity references (C95, C96, C97)
-/

namespace Verif.FRef

/-- A call is legal when the objects it names are alive. -/
def Legal (w : World) : Op → Prop
  | .newDoc _ _ => True
  | .newEnt d _ => d = home ∨ w.docs d ≠ none
  | .newRef => True
  | .setUri r _ _ => w.refs r ≠ none
  | .setEntityId r _ => w.refs r ≠ none
  | .setEntity r e => w.refs r ≠ none ∧ ∀ x, e = some x → ∃ E ∈ w.ents, E.name = x
  | .getEntity _ _ r => w.refs r ≠ none
  | .releaseRef r => w.refs r ≠ none
  | .releaseEnt e => ∃ E ∈ w.ents, E.name = e
  | .releaseDoc d => w.docs d ≠ none
  | .unloadTarget h => ∃ H ∈ w.holders, H.name = h
  | .releaseHolder h => ∃ H ∈ w.holders, H.name = h

/-- The worlds that legal calls lead to. -/
inductive Reach : World → Prop
  | start : Reach start
  | step {w w' : World} (op : Op) : Reach w → Legal w op → step w op = some w' → Reach w'

/-- Placeholder `H` stands for the references that go through it: it lists each of them once, and it has at least one. -/
structure ListsItsReferences (w : World) (H : Holder) : Prop where
  mem : ∀ r, r ∈ H.refs ↔ ∃ R, w.refs r = some R ∧ R.holder = some H.name
  nodup : H.refs.Nodup
  nonempty : H.refs ≠ []

/-- Nothing dangles: references point to entities and placeholders that are alive, placeholders to documents that are alive, entities are in
documents that are alive. -/
structure NothingDangles (w : World) : Prop where
  entity : ∀ r R e, w.refs r = some R → R.entity = some e → ∃ E ∈ w.ents, E.name = e
  holder : ∀ r R h, w.refs r = some R → R.holder = some h → ∃ H ∈ w.holders, H.name = h
  target : ∀ H ∈ w.holders, ∀ d, H.target = some d → w.docs d ≠ none
  doc : ∀ E ∈ w.ents, E.doc = home ∨ w.docs E.doc ≠ none

/-- What a reference answers. -/
structure PointsTo (w : World) (r : Nat) (E : Ent) : Prop where
  entity : ∃ R, w.refs r = some R ∧ R.entity = some E.name ∧ R.id = E.id
  /-- The reference is external exactly when the entity is in another document; its placeholder then stands for that document. -/
  external : ∃ R, w.refs r = some R ∧
    ((E.doc = home ∧ R.holder = none) ∨ (E.doc ≠ home ∧ ∃ H ∈ w.holders, R.holder = some H.name ∧ H.target = some E.doc))

/-- The document a reference looks in. -/
def LooksIn (w : World) (R : Ref) (d : Nat) : Prop :=
  (R.holder = none ∧ d = home) ∨ ∃ H ∈ w.holders, R.holder = some H.name ∧ H.target = some d

end Verif.FRef
