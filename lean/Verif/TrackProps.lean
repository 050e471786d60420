import Verif.TrackAux
import Verif.TrackLemmas

/-!
# Properties of tracked pointers and lists (C31)
-/

namespace Verif.FTrack

/-- **C31 (partial).** After any history of legal operations, every object a tracked pointer or a tracked list still refers to is alive.
What is missing: lists given the same object twice, and copies of tracked pointers and lists; see `tracked_violated`. -/
theorem tracked_alive_partial {w : World} (h : Reach w) (t o : Nat) (ht : some o ∈ held w t) : Alive w o :=
  held_valid (reach_inv h) t (some o) ht

/-- **C31 (partial).** Releasing a live object works, and afterwards every tracker holds exactly what it held before, without the released
object; the other objects stay alive. -/
theorem released_removed_partial {w : World} (h : Reach w) (o : Nat) (ha : Alive w o) :
    ∃ w', release w o = some w' ∧ (∀ t, some o ∉ held w' t) ∧ (∀ t, w'.trks t = (w.trks t).map (without o)) ∧
      (∀ x, Alive w' x ↔ Alive w x ∧ x ≠ o) := by
  obtain ⟨w', h1, h2, h3⟩ := release_spec (reach_inv h) o ha
  refine ⟨w', h1, fun t => ?_, h3, fun x => ?_⟩
  · unfold held
    rw [h3]
    cases w.trks t with
    | none => simp
    | some c => simp [without_items]
  · by_cases hx : x = o
    · simp [Alive, h2, hx]
    · simp [Alive, h2, hx]

/-- **C31 (partial).** No legal operation runs into undefined behaviour: no destructor, assignment, list operation or release ever touches
a freed object or a destroyed tracker. -/
theorem tracking_safe_partial {w : World} (h : Reach w) (op : Op) (hl : Legal w op) : ∃ w', run w op = some w' :=
  let ⟨w', h1, _⟩ := run_inv (reach_inv h) op hl
  ⟨w', h1⟩

example : some 7 ∈ held sample 2 ∧ Alive sample 7 := by simp [held, sample, Content.items, Alive]

example : Legal sample (.eraseAt 2 1) ∧ Legal sample (.release 7) ∧ Legal sample (.assign 1 (some 8)) := by
  simp [Legal, sample, Alive, Valid]

/-- A world with one object and one list. -/
def bare (t : Nat) : Option World := (create empty 0).bind fun w => newList w t

/-- **C31 is violated.** A tracked list that was given the same object twice, a copy-constructed tracked pointer, a copied tracked list and
an assigned tracked list all still hold the object after its release. -/
theorem tracked_violated :
    (∃ w, ((bare 0).bind fun w => (pushBack w 0 (some 0)).bind fun w => (pushBack w 0 (some 0)).bind fun w => release w 0) = some w ∧
      some 0 ∈ held w 0 ∧ ¬ Alive w 0) ∧
    (∃ w, ((create empty 0).bind fun w => (newPtr w 0 (some 0)).bind fun w => (copyPtr w 1 0).bind fun w => release w 0) = some w ∧
      some 0 ∈ held w 1 ∧ ¬ Alive w 0) ∧
    (∃ w, ((bare 0).bind fun w => (pushBack w 0 (some 0)).bind fun w => (copyList w 1 0).bind fun w => release w 0) = some w ∧
      some 0 ∈ held w 1 ∧ ¬ Alive w 0) ∧
    (∃ w, ((bare 0).bind fun w => (newList w 1).bind fun w => (pushBack w 0 (some 0)).bind fun w => (assignList w 1 0).bind fun w =>
      release w 0) = some w ∧ some 0 ∈ held w 1 ∧ ¬ Alive w 0) := by
  refine ⟨⟨_, rfl, ?_⟩, ⟨_, rfl, ?_⟩, ⟨_, rfl, ?_⟩, ⟨_, rfl, ?_⟩⟩ <;>
    simp [held, put, Alive, Function.update, Content.items]

end Verif.FTrack
