import Verif.EntityRefSteps

/-! # Lemmas for the properties in EntityRefProps -/

namespace Verif.FRef

/-- What a release of entities does to one reference. -/
theorem releaseEnts_ref_eq {w : World} {exc : Option Nat} (hi : Inv exc w) (p : Ent → Bool) {k : Nat} {R : Ref} (hR : w.refs k = some R) :
    (∀ E ∈ w.ents, R.entity = some E.name → p E = true →
      (releaseEnts w p).refs k = some { R with entity := none, id := if R.holder = none then [] else E.id }) ∧
    ((∀ E ∈ w.ents, R.entity = some E.name → p E = false) → (releaseEnts w p).refs k = some R) := by
  constructor
  · intro E hE he hp
    simp only [releaseEnts, hR, Option.map_some, onEntityReleased, he, Option.bind_some, deadIds_isSome hi.entNames hE, hp, if_true]
  · intro h
    simp only [releaseEnts, hR, Option.map_some, onEntityReleased]
    cases he : R.entity with
    | none => simp
    | some e =>
      obtain ⟨E, hE, rfl⟩ := hi.safe.entity k R e hR he
      simp [deadIds_isSome hi.entNames hE, h E hE he]

/-- Two local entities with ids 1 and 2, and a reference set to the first. -/
theorem witness_local : ∃ w, Reach w ∧ w.ents = [⟨1, home, [1]⟩, ⟨2, home, [2]⟩] ∧ w.refs 3 = some ⟨some 1, none, [1]⟩ ∧ w.holders = [] :=
  ⟨_, .step (.setEntity 3 (some 1)) (.step .newRef (.step (.newEnt home [2]) (.step (.newEnt home [1]) .start (.inl rfl) rfl) (.inl rfl) rfl) trivial rfl)
    ⟨by simp [newRef, start], by rintro x ⟨⟩; exact ⟨⟨1, home, [1]⟩, by simp [newRef, start], rfl⟩⟩ rfl, rfl, rfl, rfl⟩

/-- A document with URL 9 that is not a top document, with entity 2 (id 1); a local entity 3 (id 2); reference 4, set to entity 2 through
placeholder 5. -/
theorem witness_external : ∃ w, Reach w ∧ w.ents = [⟨2, 1, [1]⟩, ⟨3, home, [2]⟩] ∧ w.refs 4 = some ⟨some 2, some 5, [1]⟩ ∧
    w.holders = [⟨5, some 1, [9], [4]⟩] ∧ w.docs 1 = some ⟨[9], false⟩ :=
  ⟨_, .step (.setEntity 4 (some 2)) (.step .newRef (.step (.newEnt home [2]) (.step (.newEnt 1 [1]) (.step (.newDoc [9] false) .start trivial rfl)
      (.inr (by simp [newDoc, start])) rfl) (.inl rfl) rfl) trivial rfl)
    ⟨by simp [newRef, newDoc, start], by rintro x ⟨⟩; exact ⟨⟨2, 1, [1]⟩, by simp [newRef, newDoc, start], rfl⟩⟩ rfl, rfl, rfl, rfl, rfl⟩

end Verif.FRef
