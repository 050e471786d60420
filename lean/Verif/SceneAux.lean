import Verif.SceneOps

/-! # Lemmas for the properties in SceneProps -/

namespace Verif.FScene

theorem reach_run {w w' : World} {op : Op} (h : Reach w) (hl : Legal w op) (hr : ∃ N, ∀ n, run (n + N) w op = some w') : Reach w' := by
  obtain ⟨N, hr⟩ := hr
  refine .step h hl ⟨N, fun n hn => ?_⟩
  have := hr (n - N)
  rwa [Nat.sub_add_cancel hn] at this

/-- A reachable graph with a shared node: 3 is a child of 1 and of 2, and 2 is a child of 1. -/
theorem sample_reach : ∃ w, Reach w ∧ w.nodes 1 = some ⟨[], [2, 3]⟩ ∧ w.nodes 2 = some ⟨[1], [3]⟩ ∧ w.nodes 3 = some ⟨[1, 2], []⟩ := by
  have h1 : Reach _ := reach_run (op := .create 1) .start ⟨rfl, by simp⟩ ⟨0, fun n => rfl⟩
  have h2 : Reach _ := reach_run (op := .create 2) h1 ⟨rfl, by simp [put]⟩ ⟨0, fun n => rfl⟩
  have h3 : Reach _ := reach_run (op := .create 3) h2 ⟨rfl, by simp [put]⟩ ⟨0, fun n => rfl⟩
  have h4 : Reach _ := reach_run (op := .add 1 (some 2)) h3 ⟨rfl, by rintro z ⟨⟩; rfl⟩ ⟨1, fun n => rfl⟩
  have h5 : Reach _ := reach_run (op := .add 1 (some 3)) h4 ⟨rfl, by rintro z ⟨⟩; rfl⟩ ⟨1, fun n => rfl⟩
  have h6 : Reach _ := reach_run (op := .add 2 (some 3)) h5 ⟨rfl, by rintro z ⟨⟩; rfl⟩ ⟨2, fun n => rfl⟩
  exact ⟨_, h6, rfl, rfl, rfl⟩

end Verif.FScene
