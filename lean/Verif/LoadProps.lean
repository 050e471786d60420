import Verif.LoadLemmas

/-!
# C182: the status of the loading of a document tells whether all of it was loaded

Wanted: the loading of a document succeeds exactly if every part of it is loaded without failure and the user does not ask to stop; once the user asks to stop, nothing more is loaded and the loading fails.
-/

namespace Verif.FLoad

open Verif.FArc (Kind)

variable {A : Type}

/-- **C182.** If the user never asks to stop, all entities of the file are loaded, in the order of the libraries, and the number of documents that are being loaded is what it was. -/
theorem load_all (w : Links A) (cancel : Nat → Bool) (count : Nat) (f : FileIn A) (hr : f.root = true) (hc : ∀ k, cancel k = false) :
    (importFile w cancel count f).loaded = whole f.libs ∧ (importFile w cancel count f).count = count := by
  obtain ⟨h1, h2, _⟩ := loadLibs_never cancel hc f.libs 0
  unfold importFile
  rw [hr, if_neg (by decide), h2, if_neg (by decide)]
  exact ⟨h1, rfl⟩

/-- **C182.** When the loading succeeds: if all parts are loaded without failure, or else some controller is linked or there is some visual scene; and if no animation reports a driver, or else errors are fatal. -/
theorem load_status (w : Links A) (cancel : Nat → Bool) (count : Nat) (f : FileIn A) (hr : f.root = true) (hc : ∀ k, cancel k = false) : (importFile w cancel count f).status = true ↔
    (Good f ∨ (∃ a, (Kind.controller, a) ∈ whole f.libs ∧ w.controller a = true) ∨ ∃ a, (Kind.visualScene, a) ∈ whole f.libs) ∧
      ∀ a, (Kind.animation, a) ∈ whole f.libs → w.drivers a = 0 ∨ w.fatal = true := by
  obtain ⟨h1, h2, h3⟩ := loadLibs_never cancel hc f.libs 0
  unfold importFile
  rw [hr, if_neg (by decide), h2, if_neg (by decide)]
  show linkStatus w _ _ = true ↔ _
  rw [linkStatus_iff, h1, Bool.and_eq_true, h3, List.all_eq_true]
  rfl

/-- **C182, partial.** With errors that are fatal, as they are by default, the loading of a file without visual scenes and without controllers succeeds exactly if all parts are loaded without failure. Missing: the others
(`load_hidden_violated`). -/
theorem load_status_partial (w : Links A) (cancel : Nat → Bool) (count : Nat) (f : FileIn A) (hr : f.root = true) (hc : ∀ k, cancel k = false) (hf : w.fatal = true)
    (h : ∀ x ∈ whole f.libs, x.1 ≠ .controller ∧ x.1 ≠ .visualScene) : (importFile w cancel count f).status = true ↔ Good f := by
  rw [load_status w cancel count f hr hc]
  constructor
  · rintro ⟨h1 | ⟨a, ha, _⟩ | ⟨a, ha⟩, _⟩
    · exact h1
    · exact absurd rfl (h _ ha).1
    · exact absurd rfl (h _ ha).2
  · exact fun hg => ⟨.inl hg, fun _ _ => .inr hf⟩

/-- **C182.** If all parts are loaded without failure and errors are fatal the loading succeeds. -/
theorem load_success (w : Links A) (cancel : Nat → Bool) (count : Nat) (f : FileIn A) (hr : f.root = true) (hc : ∀ k, cancel k = false) (hf : w.fatal = true) (hg : Good f) :
    (importFile w cancel count f).status = true := (load_status w cancel count f hr hc).2 ⟨.inl hg, fun _ _ => .inr hf⟩

/-- A file with a mesh that fails and one that does not. -/
def sampleFile : FileIn Nat := ⟨true, [true], [⟨.geometry, [none, some (1, false), some (2, true)], true⟩, ⟨.camera, [some (3, true)], true⟩]⟩

/-- Links that are made. -/
def sampleLinks : Links Nat := ⟨fun _ => true, fun _ => .node [.controller] [.node [] []], fun _ => 0, true⟩

example : (∀ x ∈ whole sampleFile.libs, x.1 ≠ .controller ∧ x.1 ≠ .visualScene) ∧ (importFile sampleLinks (fun _ => false) 0 sampleFile).status = false ∧
    whole sampleFile.libs = [(.geometry, 1), (.geometry, 2), (.camera, 3)] := by decide +kernel

/-- **C182.** Whatever the user answers, what is loaded is part of the file, in its order. -/
theorem load_part (w : Links A) (cancel : Nat → Bool) (count : Nat) (f : FileIn A) : ((importFile w cancel count f).loaded).Sublist (whole f.libs) := by
  unfold importFile
  split
  · exact List.nil_sublist _
  · split <;> exact loadLibs_sublist cancel f.libs 0

/-- **C182.** If the user, who says to stop at the question number `j`, then keeps to it, at most `j` entities are loaded, and they are the first of the file. -/
theorem load_stops (w : Links A) (cancel : Nat → Bool) (count : Nat) (f : FileIn A) (hc : ∀ i j, i ≤ j → cancel i = true → cancel j = true) (j : Nat) (hj : cancel j = true) :
    (importFile w cancel count f).loaded <+: whole f.libs ∧ (importFile w cancel count f).loaded.length ≤ j := by
  have h1 := loadLibs_prefix cancel hc f.libs 0
  have h2 := loadLibs_length cancel hc j hj f.libs 0
  rw [Nat.sub_zero] at h2
  unfold importFile
  split
  · exact ⟨List.nil_prefix, Nat.zero_le _⟩
  · split <;> exact ⟨h1, h2⟩

/-- **C182, partial.** The loading fails if the user says to stop before the last library is read, and keeps to it. Missing: a user who says so once, or while the last library is read (`stop_once_violated`, `stop_last_violated`). -/
theorem load_stopped_partial (w : Links A) (cancel : Nat → Bool) (count : Nat) (f : FileIn A) (ls : List (LibIn A)) (last : LibIn A) (hl : f.libs = ls ++ [last])
    (hc : ∀ i j, i ≤ j → cancel i = true → cancel j = true) (j : Nat) (hj : cancel j = true) (h : j ≤ (ls.map asks).sum) : (importFile w cancel count f).status = false := by
  have := loadLibs_stopped cancel hc last ls 0 j hj (by omega)
  unfold importFile
  rw [hl, this]
  split <;> rfl

example : (importFile sampleLinks (fun k => decide (2 ≤ k)) 0 sampleFile).loaded = [(.geometry, 1)] ∧ (importFile sampleLinks (fun k => decide (2 ≤ k)) 0 sampleFile).status = false ∧
    2 ≤ ([(⟨.geometry, [none, some (1, false), some (2, true)], true⟩ : LibIn Nat)].map asks).sum := by decide +kernel

/-! ## What does not hold -/

/-- **C182, violated.** Whatever fails, a file with a visual scene is loaded with success: the linking of the scene, which never fails, replaces the status. -/
theorem load_hidden_violated (w : Links A) (cancel : Nat → Bool) (count : Nat) (f : FileIn A) (hr : f.root = true) (hc : ∀ k, cancel k = false) (hf : w.fatal = true) (a : A)
    (ha : (Kind.visualScene, a) ∈ whole f.libs) : (importFile w cancel count f).status = true := (load_status w cancel count f hr hc).2 ⟨.inr (.inr ⟨a, ha⟩), fun _ _ => .inr hf⟩

/-- **C182, violated.** A user who says to stop once, while a library is read, loses the rest of that library only: the others are loaded, and the loading succeeds. -/
theorem stop_once_violated : (importFile sampleLinks (fun k => decide (k = 1)) 0 ⟨true, [], [⟨.geometry, [some (1, true), some (2, true)], true⟩, ⟨.visualScene, [some (3, true)], true⟩]⟩) =
    ⟨true, [(.geometry, 1), (.visualScene, 3)], 0⟩ := by rfl

/-- **C182, violated.** If the user says to stop while the last library is read, and keeps to it, the rest of it is missing and the loading succeeds. -/
theorem stop_last_violated : (importFile sampleLinks (fun k => decide (1 ≤ k)) 0 ⟨true, [], [⟨.visualScene, [some (3, true), some (4, true)], true⟩]⟩) = ⟨true, [(.visualScene, 3)], 0⟩ := by rfl

/-- **C182, violated.** After a file with another root, and after a user has stopped the loading between two libraries, a document is still counted as being loaded. -/
theorem load_count_violated (w : Links A) (cancel : Nat → Bool) (count : Nat) (f : FileIn A) (h : f.root = false ∨ (f.libs ≠ [] ∧ cancel 0 = true)) : (importFile w cancel count f).count = count + 1 := by
  unfold importFile
  split
  · rfl
  · rename_i hr
    obtain ⟨hl, h0⟩ := h.resolve_left hr
    cases hls : f.libs with
    | nil => exact absurd hls hl
    | cons l ls =>
      have : (loadLibs cancel 0 (l :: ls)).stopped = true := by
        unfold loadLibs
        rw [if_pos h0]
      rw [this, if_pos rfl]

/-- **C182, violated.** If errors are not fatal, an animation with a driver makes the loading fail; if they are, it does not. -/
theorem load_driver_violated (w : Links A) (cancel : Nat → Bool) (count : Nat) (f : FileIn A) (hr : f.root = true) (hc : ∀ k, cancel k = false) (hg : Good f) (a : A) (ha : (Kind.animation, a) ∈ whole f.libs)
    (hd : w.drivers a ≠ 0) : (importFile w cancel count f).status = w.fatal := by
  cases hf : w.fatal with
  | true => exact load_success w cancel count f hr hc hf hg
  | false =>
    refine Bool.eq_false_iff.2 fun h => ?_
    rcases ((load_status w cancel count f hr hc).1 h).2 a ha with h1 | h1
    · exact hd h1
    · rw [hf] at h1
      cases h1

end Verif.FLoad
