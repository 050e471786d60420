import Verif.MeshEditTerms
import Verif.MeshEditLemmas
import Verif.PolyProps

/-! # Lemmas for the properties in MeshEditProps -/

namespace Verif.FMesh

open Verif.FPoly Verif.FUnify Verif.FFit

/-- Two inputs at offset 0, for the sources 5 and 6, that share a list, and one at offset 1. -/
theorem sample_reached : ∃ w, Reached w ∧ w.alive 5 = true ∧
    w.inputs = [⟨0, some 5, ⟨0, [some 2, some 0, some 1]⟩⟩, ⟨1, some 6, ⟨0, []⟩⟩, ⟨2, some 7, ⟨1, [some 4, some 4, some 3]⟩⟩] := by
  have h1 := Reached.step (a := .createSource 5) (w' := ⟨[], 0, fun e => if e = 5 then true else false, fun e => if e = 5 then [] else []⟩) .start rfl rfl
  have h2 := Reached.step (a := .createSource 6) h1 rfl rfl
  have h3 := Reached.step (a := .createSource 7) h2 rfl rfl
  have h4 := Reached.step (a := .addInput (some 5) 0) h3 (fun d hd => by cases hd; rfl) rfl
  have h5 := Reached.step (a := .addInput (some 6) 0) h4 (fun d hd => by cases hd; rfl) rfl
  have h6 := Reached.step (a := .addInput (some 7) 1) h5 (fun d hd => by cases hd; rfl) rfl
  have h7 := Reached.step (a := .setIndices 0 [some 2, some 0, some 1]) h6 ⟨_, List.mem_cons_self, rfl⟩ rfl
  have h8 := Reached.step (a := .setIndices 2 [some 4, some 4, some 3]) h7 ⟨_, List.mem_cons_of_mem _ (List.mem_cons_of_mem _ List.mem_cons_self), rfl⟩ rfl
  exact ⟨_, h8, rfl, rfl⟩

theorem sample_plain : Plain (sampleMesh .polygons) := by
  have hb : Built (⟨⟨[3], [], [⟨0, [0, 1, 2].map some⟩, ⟨1, [7, 7, 8].map some⟩, ⟨1, []⟩], .polygons, 3⟩, [0, 1, 2]⟩ : MSet) :=
    ⟨reach_foldlM (ops := [Op.addInput 0, .addInput 1, .addInput 1, .addFace 3, .setIndices 0 ([0, 1, 2].map some), .setIndices 1 ([7, 7, 8].map some)]) .start (by decide),
      rfl, by decide⟩
  refine ⟨?_, ?_, by decide, ?_⟩
  all_goals intro S hS; simp only [sampleMesh, List.mem_singleton] at hS; subst hS
  · exact hb
  · decide
  · decide

end Verif.FMesh
