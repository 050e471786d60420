import Verif.InstLemmas
import Verif.SceneProps

/-! # Lemmas for the properties in InstProps -/

namespace Verif.FInst

open Verif.FScene Verif.FStr

theorem chain_reach : ∃ w, Reach w ∧ w.nodes 1 = some ⟨[], [2]⟩ ∧ w.nodes 2 = some ⟨[1], [3]⟩ ∧ w.nodes 3 = some ⟨[2], []⟩ := by
  have h1 : Reach _ := reach_run (op := .create 1) .start ⟨rfl, by simp⟩ ⟨0, fun n => rfl⟩
  have h2 : Reach _ := reach_run (op := .create 2) h1 ⟨rfl, by simp [put]⟩ ⟨0, fun n => rfl⟩
  have h3 : Reach _ := reach_run (op := .create 3) h2 ⟨rfl, by simp [put]⟩ ⟨0, fun n => rfl⟩
  have h4 : Reach _ := reach_run (op := .add 1 (some 2)) h3 ⟨rfl, by rintro z ⟨⟩; rfl⟩ ⟨1, fun n => rfl⟩
  have h5 : Reach _ := reach_run (op := .add 2 (some 3)) h4 ⟨rfl, by rintro z ⟨⟩; rfl⟩ ⟨2, fun n => rfl⟩
  exact ⟨_, h5, rfl, rfl, rfl⟩

end Verif.FInst
