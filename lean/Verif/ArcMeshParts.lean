import Verif.ArcMeshAll

/-! # Lemmas about the elements of a mesh -/

namespace Verif.FArc

open Verif.FEff (Text text)
open Verif.FConv (Ov Formats shown)
open Verif.Enum (GeometryInput)

theorem sources_written (ov : Ov) {fmt rnd} (hf : Formats fmt rnd) : ∀ (ss : List GSource), (∀ s ∈ ss, GoodSource s) →
    (∀ n ∈ ss.filterMap (writeSource fmt), n.name = text "source") ∧
      (ss.filterMap (writeSource fmt)).mapM (loadSource ov) = some (ss.map fun s => { s with type := .unknown, data := s.data.map (shown rnd) })
  | [], _ => ⟨by simp, rfl⟩
  | s :: ss, h => by
    obtain ⟨n, h1, h2, h3⟩ := loadSource_write ov hf (h s (by simp))
    obtain ⟨ih1, ih2⟩ := sources_written ov hf ss fun x hx => h x (by simp [hx])
    rw [List.filterMap_cons, h1]
    simp only
    refine ⟨?_, ?_⟩
    · intro m hm
      rcases List.mem_cons.1 hm with rfl | hm
      · exact h2
      · exact ih1 m hm
    · rw [List.mapM_cons, h3, ih2]
      rfl

theorem vertexNode_name (M : GMesh) {W : List Nat} {n : Node} (h : n ∈ W.flatMap (vertexNode M)) : n.name = text "input" := by
  obtain ⟨s, -, hs⟩ := List.mem_flatMap.1 h
  unfold vertexNode at hs
  split at hs
  · exact inputNode_name hs
  · simp at hs

theorem vertexSetNode_name (M : GMesh) {W : List Nat} {n : Node} (h : n ∈ W.flatMap (vertexSetNode M)) : n.name = text "input" := by
  obtain ⟨s, -, hs⟩ := List.mem_flatMap.1 h
  unfold vertexSetNode at hs
  split at hs
  · exact inputNode_name hs
  · simp at hs

theorem vertices_inputs (M : GMesh) : (writeVertices M).children (text "input") = M.vertex.flatMap (vertexNode M) := by
  have h1 : ((M.vertex.flatMap (vertexNode M)).filter fun c => decide (c.name = text "input")) = M.vertex.flatMap (vertexNode M) := by
    rw [List.filter_eq_self]
    intro n hn
    exact decide_eq_true (vertexNode_name M hn)
  have h2 : (Node.elem (text "extra") [] [] [.elem (text "technique") [(text "profile", text "FCOLLADA")] [] (M.vertex.flatMap (vertexSetNode M))]).name ≠ text "input" := by
    rw [name_elem, Ne, text_inj]; decide
  have h3 : (writeVertices M).children (text "input") = (M.vertex.flatMap (vertexNode M) ++
      if M.vertex.any fun s => (vertexSet M s).isSome then
        [Node.elem (text "extra") [] [] [.elem (text "technique") [(text "profile", text "FCOLLADA")] [] (M.vertex.flatMap (vertexSetNode M))]]
      else []).filter fun c => decide (c.name = text "input") := rfl
  rw [h3, List.filter_append, h1]
  split
  · rw [List.filter_cons, if_neg (by rw [decide_eq_true_eq]; exact h2)]
    simp
  · simp

theorem hplain (t : Text) (h : ∀ c ∈ t, (1 ≤ c ∧ c ≤ 127) ∧ c ≠ 37) : Plain t := by
  intro c hc
  obtain ⟨⟨h1, h2⟩, h3⟩ := h c hc
  exact ⟨⟨by unfold Verif.FStr.Ch at *; omega, by unfold Verif.FStr.Ch at *; omega, by unfold Verif.FStr.Ch at *; omega⟩, h3⟩

theorem vertices_sets (M : GMesh) : vertexSetNodes (writeVertices M) = M.vertex.flatMap (vertexSetNode M) := by
  have h1 : ((M.vertex.flatMap (vertexNode M)).find? fun c => decide (c.name = text "extra")) = none := by
    rw [List.find?_eq_none]
    intro n hn
    rw [vertexNode_name M hn, decide_eq_true_eq, text_inj]
    decide
  have h2 : ((M.vertex.flatMap (vertexSetNode M)).filter fun c => decide (c.name = text "input")) = M.vertex.flatMap (vertexSetNode M) := by
    rw [List.filter_eq_self]
    intro n hn
    exact decide_eq_true (vertexSetNode_name M hn)
  have h3 : (writeVertices M).child (text "extra") = if M.vertex.any fun s => (vertexSet M s).isSome then
        some (Node.elem (text "extra") [] [] [.elem (text "technique") [(text "profile", text "FCOLLADA")] [] (M.vertex.flatMap (vertexSetNode M))]) else none := by
    have : (writeVertices M).child (text "extra") = (M.vertex.flatMap (vertexNode M) ++
      if M.vertex.any fun s => (vertexSet M s).isSome then
        [Node.elem (text "extra") [] [] [.elem (text "technique") [(text "profile", text "FCOLLADA")] [] (M.vertex.flatMap (vertexSetNode M))]]
      else []).find? fun c => decide (c.name = text "extra") := rfl
    rw [this, List.find?_append, h1, Option.none_or]
    split
    · exact List.find?_cons_of_pos (p := fun c : Node => decide (c.name = text "extra")) (decide_eq_true (name_elem ..))
    · rfl
  unfold vertexSetNodes
  rw [h3]
  split
  · next h =>
    split at h
    · exact absurd h (by simp)
    · next hn =>
      symm
      rw [List.flatMap_eq_nil_iff]
      intro s hs
      have : vertexSet M s = none := by
        simp only [Bool.not_eq_true, List.any_eq_false] at hn
        simpa using hn s hs
      unfold vertexSetNode
      rw [this]
      cases M.sources[s]? <;> rfl
  · next x h =>
    split at h
    · rw [Option.some.injEq] at h
      subst h
      have hp : prop (some (Node.elem (text "technique") [(text "profile", text "FCOLLADA")] [] (M.vertex.flatMap (vertexSetNode M)))) (text "profile") = some (text "FCOLLADA") := by
        unfold prop
        rw [Option.bind_some, raw_cons, if_pos rfl]
        exact decode_plain (hplain _ (by decide +kernel))
      have hf : findTech (Node.elem (text "extra") [] [] [.elem (text "technique") [(text "profile", text "FCOLLADA")] [] (M.vertex.flatMap (vertexSetNode M))]).kids (text "FCOLLADA") = some 0 := by
        have : (Node.elem (text "extra") [] [] [.elem (text "technique") [(text "profile", text "FCOLLADA")] [] (M.vertex.flatMap (vertexSetNode M))]).kids =
          [.elem (text "technique") [(text "profile", text "FCOLLADA")] [] (M.vertex.flatMap (vertexSetNode M))] := rfl
        rw [this]
        unfold findTech
        rw [List.findIdx?_cons, hp]
        simp [name_elem]
      rw [hf]
      show _ = _
      exact h2
    · exact absurd h (by simp)

theorem vertexSetNode_none {M : GMesh} (h : M.sets = []) : M.vertex.flatMap (vertexSetNode M) = [] := by
  rw [List.flatMap_eq_nil_iff]
  intro s _
  unfold vertexSetNode vertexSet
  rw [h]
  cases M.sources[s]? <;> rfl

end Verif.FArc
