import Verif.ObjTypeAux
import Verif.ObjType
import Mathlib.Logic.Relation
import Mathlib.Tactic.Common

/-!
# Properties of class types (C43)
-/

namespace Verif.FType

open Relation

/-- **C43.** For every table of type objects the program can build, `Includes` answers whether the other type is the type itself or one of its
ancestors. -/
theorem includes_iff {ts : Types} (h : Built ts) (t : Nat) (ht : t < ts.length) (other : Nat) :
    ∃ b, includes ts t other = some b ∧ (b = true ↔ ReflTransGen (IsParent ts) t other) := by
  induction t using Nat.strongRecOn with
  | ind t ih =>
    rw [includes, List.getElem?_eq_getElem ht]
    simp only
    by_cases ho : other = t
    · subst ho
      exact ⟨true, by simp, by simp [ReflTransGen.refl]⟩
    · rw [if_neg ho]
      cases hp : ts[t] with
      | none =>
        refine ⟨false, rfl, ?_⟩
        simp only [Bool.false_eq_true, false_iff]
        intro hr
        rcases ReflTransGen.cases_head hr with h1 | ⟨p, h1, -⟩
        · exact ho h1.symm
        · unfold IsParent at h1
          rw [List.getElem?_eq_getElem ht, hp] at h1
          cases h1
      | some p =>
        have hpar : IsParent ts t p := by unfold IsParent; rw [List.getElem?_eq_getElem ht, hp]
        have hlt := built_lt h t p hpar
        obtain ⟨b, h1, h2⟩ := ih p hlt (by omega)
        refine ⟨b, by simp [hlt, h1], h2.trans ⟨fun h3 => ReflTransGen.head hpar h3, fun h3 => ?_⟩⟩
        rcases ReflTransGen.cases_head h3 with h4 | ⟨q, h4, h5⟩
        · exact absurd h4.symm ho
        · unfold IsParent at h4 hpar
          rw [hpar] at h4
          cases h4
          exact h5

/-- **C43.** `Includes` is reflexive, transitive and antisymmetric. -/
theorem includes_order {ts : Types} (h : Built ts) (a b c : Nat) (ha : a < ts.length) (hb : b < ts.length) :
    includes ts a a = some true ∧
    (includes ts a b = some true → includes ts b c = some true → includes ts a c = some true) ∧
    (includes ts a b = some true → includes ts b a = some true → a = b) := by
  have key : ∀ x y, x < ts.length → (includes ts x y = some true ↔ ReflTransGen (IsParent ts) x y) := fun x y hx => by
    obtain ⟨v, h1, h2⟩ := includes_iff h x hx y
    rw [h1, ← h2]; simp
  refine ⟨(key a a ha).2 .refl, fun h1 h2 => ?_, fun h1 h2 => ?_⟩
  · exact (key a c ha).2 (((key a b ha).1 h1).trans ((key b c hb).1 h2))
  · exact Nat.le_antisymm (rtg_le h ((key b a hb).1 h2)) (rtg_le h ((key a b ha).1 h1))

/-- FUObject (0), FUTrackable (1), FUParameterizable (2), FCDObject (3), FCDObjectWithId (4), FCDEntity (5), FCDSceneNode (6),
FCDTargetedEntity (7), FCDCamera (8): FUTracker.h 35, FUParameterizable.h 54, FCDObject.h 46, FCDObjectWithId.h 40, FCDEntity.h 84,
FCDSceneNode.h 57, FCDTargetedEntity.h 44, FCDCamera.h 63. -/
def someTypes : Types := [none, some 0, some 1, some 2, some 3, some 4, some 5, some 5, some 7]

example : Built someTypes := by
  have h0 : Built [none] := Built.root .nil
  have h1 : Built [none, some 0] := Built.sub 0 h0 rfl
  have h2 : Built [none, some 0, some 1] := Built.sub 1 h1 rfl
  have h3 : Built [none, some 0, some 1, some 2] := Built.sub 2 h2 rfl
  have h4 : Built [none, some 0, some 1, some 2, some 3] := Built.sub 3 h3 rfl
  have h5 : Built [none, some 0, some 1, some 2, some 3, some 4] := Built.sub 4 h4 rfl
  have h6 : Built [none, some 0, some 1, some 2, some 3, some 4, some 5] := Built.sub 5 h5 rfl
  have h7 : Built [none, some 0, some 1, some 2, some 3, some 4, some 5, some 5] := Built.sub 5 h6 rfl
  exact Built.sub 7 h7 rfl

example : includes someTypes 8 5 = some true ∧ includes someTypes 6 7 = some false ∧ includes someTypes 5 8 = some false := by
  decide +kernel

end Verif.FType
