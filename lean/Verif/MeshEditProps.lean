import Verif.MeshEditAux
import Verif.MeshEditLemmas
import Verif.PolyProps

/-!
# The release of data sources, new per-vertex sources and clones of meshes: theorems (C83, C84)
-/

namespace Verif.FMesh

open Verif.FPoly Verif.FUnify Verif.FFit

/-- **C83.** In every history in which a program uses only sources and inputs that exist, no call has undefined behaviour. -/
theorem defined {w : World} (h : Reached w) {a : Act} (ha : Allowed w a) : ∃ w', act w a = some w' := by
  obtain ⟨w', e, _⟩ := act_ok (reached_inv h) ha
  exact ⟨w', e⟩

/-- **C83.** At any time, the source of every input exists. -/
theorem no_dangling {w : World} (h : Reached w) {x : TInput} (hx : x ∈ w.inputs) {d : Nat} (hd : x.src = some d) : w.alive d = true :=
  ((reached_inv h).order x hx d hd).1

/-- **C83.** The release of a source leaves all inputs in the set, with the same indices; the inputs that used it have no source any more. -/
theorem release_source {w : World} (h : Reached w) {d : Nat} (hd : w.alive d = true) :
    ∃ w', releaseSource d w = some w' ∧ w'.alive d = false ∧ (∀ e, e ≠ d → w'.alive e = w.alive e) ∧ w'.inputs.length = w.inputs.length ∧
      ∀ (k : Nat) (x : TInput), w.inputs[k]? = some x → indices w' k = indices w k ∧
        w'.inputs[k]? = some (if x.src = some d then { x with src := none } else x) := by
  obtain ⟨w', e, _, hi, ha⟩ := releaseSource_eq (reached_inv h) hd
  refine ⟨w', e, by simp [ha], fun e he => by simp [ha, he], by simp [hi], fun k x hx => ⟨?_, by simp [hi, hx]⟩⟩
  unfold indices
  rw [hi, map_input_congr]
  intro y _
  split <;> rfl

/-- **C83, partial.** The release of an input removes it and leaves the others. Their indices stay, unless they used the list of the released input: then they
have none. -/
theorem release_input_partial {w : World} (h : Reached w) {k : Nat} {x : TInput} (hk : w.inputs[k]? = some x) :
    ∃ w', releaseInput x.name w = some w' ∧ (∀ y, y ∈ w'.inputs ↔ y ∈ w.inputs ∧ y.name ≠ x.name) ∧
      ∀ (j : Nat) (y : TInput), w.inputs[j]? = some y → j ≠ k → ∃ j', w'.inputs[j']? = some y ∧
        indices w' j' = if owns x.input = true ∧ y.input.offset = x.input.offset then [] else indices w j := by
  have hI := reached_inv h
  have h1 := reached_one h
  obtain ⟨w', e, hI', hi, _⟩ := releaseInput_eq hI (List.mem_of_getElem? hk)
  have hpos : ∀ (j : Nat) (y : TInput), w.inputs[j]? = some y → (y.name ≠ x.name ↔ j ≠ k) := by
    intro j y hj
    constructor
    · rintro hne rfl
      rw [hk] at hj
      exact hne (by rw [Option.some.inj hj])
    · intro hne hc
      have a1 : (w.inputs.map TInput.name)[j]? = some x.name := by simp [hj, hc]
      have a2 : (w.inputs.map TInput.name)[k]? = some x.name := by simp [hk]
      exact hne ((List.getElem?_inj (List.getElem?_eq_some_iff.1 a1).1 hI.names).1 (a1.trans a2.symm))
  refine ⟨w', e, fun y => by simp [hi], fun j y hj hjk => ?_⟩
  have hmem : y ∈ w'.inputs := by
    rw [hi, List.mem_filter]
    exact ⟨List.mem_of_getElem? hj, by simpa using (hpos j y hj).2 hjk⟩
  obtain ⟨j', hj'⟩ := List.mem_iff_getElem?.1 hmem
  refine ⟨j', hj', ?_⟩
  have hs : (w'.inputs.map TInput.input).Sublist (w.inputs.map TInput.input) := by
    rw [hi]
    exact List.filter_sublist.map _
  unfold indices
  rw [indexList_chan (one_sublist h1 hs) (x := y.input) (by simp [hj']), indexList_chan h1 (x := y.input) (by simp [hj]),
    chan_removed h1 hs (k := k) (x := x.input) (by simp [hk])]
  · intro z hz
    obtain ⟨u, hu, rfl⟩ := List.mem_map.1 hz
    rw [hi, List.mem_filter] at hu
    obtain ⟨a, ha⟩ := List.mem_iff_getElem?.1 hu.1
    exact ⟨a, (hpos a u ha).1 (by simpa using hu.2), by simp [ha]⟩
  · intro a ha z hz
    rw [List.getElem?_map, Option.map_eq_some_iff] at hz
    obtain ⟨u, hu, rfl⟩ := hz
    refine List.mem_map.2 ⟨u, ?_, rfl⟩
    rw [hi, List.mem_filter]
    exact ⟨List.mem_of_getElem? hu, by simpa using (hpos a u hu).2 ha⟩

/-- After the release of the source 5 its input still has the list, for both. -/
example : ∃ w w', Reached w ∧ releaseSource 5 w = some w' ∧ w'.inputs.map TInput.src = [none, some 6, some 7] ∧ indices w' 1 = [some 2, some 0, some 1] := by
  obtain ⟨w, h, h5, hi⟩ := sample_reached
  obtain ⟨w', e, _, _, hl, hk⟩ := release_source h h5
  refine ⟨w, w', h, e, ?_, ?_⟩
  · have k0 := (hk 0 _ (by rw [hi]; rfl)).2
    have k1 := (hk 1 _ (by rw [hi]; rfl)).2
    have k2 := (hk 2 _ (by rw [hi]; rfl)).2
    apply List.ext_getElem?
    intro i
    match i with
    | 0 => simp [k0]
    | 1 => simp [k1]
    | 2 => simp [k2]
    | i + 3 => simp [List.getElem?_eq_none (show w'.inputs.length ≤ i + 3 by rw [hl, hi]; simp)]
  · rw [(hk 1 _ (by rw [hi]; rfl)).1, indices, hi]
    decide

/-- **C83, violated.** Two inputs share their indices; when the one that has the list is released, the other one has none. -/
theorem release_input_violated : ∃ w w', Reached w ∧ indices w 1 = [some 2, some 0, some 1] ∧ releaseInput 0 w = some w' ∧
    ∃ j y, w.inputs[1]? = some y ∧ w'.inputs[j]? = some y ∧ indices w' j = [] := by
  obtain ⟨w, h, _, hi⟩ := sample_reached
  obtain ⟨w', e, _, hk⟩ := release_input_partial h (k := 0) (x := ⟨0, some 5, ⟨0, [some 2, some 0, some 1]⟩⟩) (by rw [hi]; rfl)
  obtain ⟨j, hj, hd⟩ := hk 1 ⟨1, some 6, ⟨0, []⟩⟩ (by rw [hi]; rfl) (by decide)
  exact ⟨w, w', h, by rw [indices, hi]; decide, e, j, _, by rw [hi]; rfl, hj, hd⟩

/-- **C83, partial.** A source becomes per-vertex, in a mesh built as in C48: afterwards every set has it at offset 0, with the indices of the other sources at that offset;
the other sources keep their offsets. They keep their indices unless they used the list of the input of this source, at the same offset. The sets keep everything else. -/
theorem add_vertex_source_partial {α : Type} {M : CMesh α} (h : ∀ S ∈ M.sets, Built S.set) {d : Nat} (hd : d ∉ M.vertexSources) :
    (addVertexSource d M).sources = M.sources ∧ (addVertexSource d M).vertexSources = M.vertexSources ++ [d] ∧
    (addVertexSource d M).sets.length = M.sets.length ∧
    ∀ (k : Nat) (S T : PSet), M.sets[k]? = some S → (addVertexSource d M).sets[k]? = some T →
      T.material = S.material ∧ T.set.polys = { S.set.polys with inputs := T.set.polys.inputs } ∧
      (∀ e, e ∈ T.set.srcs ↔ e = d ∨ e ∈ S.set.srcs) ∧ offsetOf T.set d = some 0 ∧
      (∀ e ∈ S.set.srcs, e ≠ d → offsetOf T.set e = offsetOf S.set e ∧ (offsetOf S.set e = some 0 → indicesOf T.set d = indicesOf T.set e) ∧
        indicesOf T.set e = if d ∈ S.set.srcs ∧ offsetOf S.set e = offsetOf S.set d ∧ (∃ x, S.set.polys.inputs[S.set.srcs.idxOf d]? = some x ∧ owns x = true) then []
          else indicesOf S.set e) := by
  unfold addVertexSource
  rw [if_neg hd]
  refine ⟨rfl, rfl, by simp, ?_⟩
  intro k S T hS hT
  simp only [List.getElem?_map, hS, Option.map_some, Option.some.injEq] at hT
  subst hT
  have hb := h S (List.mem_of_getElem? hS)
  have hone := (reach_inv hb.reach).one
  have hv := vertexInput_ok hone hb.srcs hb.nodup d
  refine ⟨rfl, hv.rest, ?_, hv.offset, ?_⟩
  · intro e
    by_cases he : e = d
    · subst he
      simp [hv.mem]
    · simp [he, hv.others e he]
  · intro e he hne
    obtain ⟨y, hy⟩ := get_input hb.srcs he
    have ho : offsetOf S.set e = some y.offset := by rw [offsetOf, hy]; rfl
    have ho' := (hv.offsets e he hne).trans ho
    refine ⟨hv.offsets e he hne, ?_, ?_⟩
    · intro hz
      rw [indicesOf_chan hv.one hv.offset, indicesOf_chan hv.one ((hv.offsets e he hne).trans hz)]
    · rw [indicesOf_chan hv.one ho', indicesOf_chan hone ho, hv.own]
      refine if_congr ?_ rfl rfl
      constructor
      · rintro ⟨⟨x, hx, h1, h2⟩, h3⟩
        refine ⟨h3, ?_, x, hx, h1⟩
        rw [ho, offsetOf, hx, h2]
        rfl
      · rintro ⟨h3, h2, x, hx, h1⟩
        refine ⟨⟨x, hx, h1, ?_⟩, h3⟩
        rw [ho, offsetOf, hx] at h2
        simpa using h2

/-- **C83, violated.** The sources 1 and 2 share their indices; when the source 1 becomes per-vertex, the source 2 has none. -/
theorem add_vertex_source_violated : Plain (sampleMesh .polygons) ∧ (sampleMesh .polygons).sets.map (fun S => indicesOf S.set 2) = [[7, 7, 8].map some] ∧
    (addVertexSource 1 (sampleMesh .polygons)).sets.map (fun S => indicesOf S.set 2) = [[]] := ⟨sample_plain, by decide, by decide⟩

/-- The source 2 does not have the list: when it becomes per-vertex, nothing is lost. -/
example : (addVertexSource 2 (sampleMesh .polygons)).sets.map (fun S => (indicesOf S.set 0, indicesOf S.set 1, indicesOf S.set 2)) =
    [([0, 1, 2].map some, [7, 7, 8].map some, [0, 1, 2].map some)] := by decide

/-- **C84, partial.** The clone of a mesh, whose inputs use its sources and have the offset 0 if these are per-vertex, has the same data sources and per-vertex sources, and polygon
sets with the same materials, faces, holes, offsets and indices into each source. Their type of primitives is `POLYGONS`. -/
theorem clone_partial {α : Type} {M : CMesh α} (h : Plain M) :
    ∃ C, cloneMesh M = some C ∧ C.sources = M.sources ∧ (∀ d, d ∈ C.vertexSources ↔ d ∈ M.vertexSources) ∧ C.sets.length = M.sets.length ∧
      ∀ (k : Nat) (S T : PSet), M.sets[k]? = some S → C.sets[k]? = some T →
        SameSet S T ∧ T.set.polys.prim = .polygons ∧ ∀ d ∈ T.set.srcs, d ∈ M.vertexSources ∨ d ∈ S.set.srcs := by
  have hv : (cloneVertexSources M).Nodup := (List.nodup_range).filter _
  have hm : ∀ d, d ∈ cloneVertexSources M ↔ d ∈ M.vertexSources := by
    intro d
    simp only [cloneVertexSources, List.mem_filter, List.mem_range, decide_eq_true_eq]
    exact ⟨fun a => a.2, fun a => ⟨h.vertex d a, a⟩⟩
  have key : ∀ sets : List PSet, (∀ S ∈ sets, S ∈ M.sets) → ∃ Ts, sets.mapM (cloneSet M.sources.length (cloneVertexSources M)) = some Ts ∧ Ts.length = sets.length ∧
      ∀ (k : Nat) (S T : PSet), sets[k]? = some S → Ts[k]? = some T → SameSet S T ∧ T.set.polys.prim = .polygons ∧ ∀ d ∈ T.set.srcs, d ∈ M.vertexSources ∨ d ∈ S.set.srcs := by
    intro sets
    induction sets with
    | nil => intro _; exact ⟨[], rfl, rfl, by simp⟩
    | cons S sets ih =>
      intro hs
      obtain ⟨Ts, e, hl, hk⟩ := ih fun S hS => hs S (List.mem_cons_of_mem _ hS)
      have hS := hs S List.mem_cons_self
      obtain ⟨T, e1, h1, h2, h3⟩ := cloneSet_ok hv (h.built S hS) (h.known S hS) fun d hd hdv => h.zero S hS d hd ((hm d).1 hdv)
      refine ⟨T :: Ts, by simp [List.mapM_cons, e1, e], by simp [hl], ?_⟩
      intro k S' T' hS' hT'
      cases k with
      | zero =>
        cases hS'
        cases hT'
        exact ⟨h1, h2, fun d hd => (h3 d hd).imp (hm d).1 _root_.id⟩
      | succ k => exact hk k S' T' (by simpa using hS') (by simpa using hT')
  obtain ⟨Ts, e, hl, hk⟩ := key M.sets fun S hS => hS
  exact ⟨⟨M.sources, Ts, cloneVertexSources M⟩, by rw [cloneMesh, e, Option.map_some], rfl, hm, hl, hk⟩

example : (cloneMesh (sampleMesh .polygons)).map (fun C => C.sets.map fun S => (S.set.srcs, indicesOf S.set 0, indicesOf S.set 1, indicesOf S.set 2)) =
    some [([0, 1, 2], [0, 1, 2].map some, [7, 7, 8].map some, [7, 7, 8].map some)] := rfl

/-- **C84, violated** (the type of primitives). The clone of a set of triangle strips is a set of polygons. -/
theorem clone_prim_violated : (cloneMesh (sampleMesh .triangleStrips)).map (fun C => C.sets.map fun S => S.set.polys.prim) = some [.polygons] := by decide

/-- **C84, violated** (offsets). Two per-vertex sources at the offsets 0 and 1: in the clone both have the offset 0, and the indices of the first are replaced. -/
theorem clone_offset_violated : ∃ M : CMesh Int, (∀ S ∈ M.sets, Built S.set) ∧ M.sets.map (fun S => (indicesOf S.set 0, indicesOf S.set 1)) = [([0, 1, 2].map some, [7, 7, 8].map some)] ∧
    (cloneMesh M).map (fun C => C.sets.map fun S => (indicesOf S.set 0, indicesOf S.set 1)) = some [([7, 7, 8].map some, [7, 7, 8].map some)] := by
  refine ⟨⟨[⟨3, []⟩, ⟨3, []⟩], [⟨⟨⟨[3], [], [⟨0, [0, 1, 2].map some⟩, ⟨1, [7, 7, 8].map some⟩], .polygons, 3⟩, [0, 1]⟩, [109]⟩], [0, 1]⟩, ?_, by decide, by decide⟩
  intro S hS
  simp only [List.mem_singleton] at hS
  subst hS
  exact ⟨reach_foldlM (ops := [Op.addInput 0, .addInput 1, .addFace 3, .setIndices 0 ([0, 1, 2].map some), .setIndices 1 ([7, 7, 8].map some)]) .start (by decide), rfl, by decide⟩

/-- **C84, violated** (two inputs for one source, as for a texture coordinate source used with two set numbers). The clone has one input for both, with the
indices of the second. -/
theorem clone_twice_violated : ∃ M : CMesh Int, M.sets.map (fun S => (S.set.srcs, S.set.polys.inputs.map Input.indices)) = [([0, 1, 1], [[0, 1, 2].map some, [7, 7, 8].map some, [4, 4, 5].map some])] ∧
    (cloneMesh M).map (fun C => C.sets.map fun S => (S.set.srcs, S.set.polys.inputs.map Input.indices)) = some [([0, 1], [[0, 1, 2].map some, [4, 4, 5].map some])] :=
  ⟨⟨[⟨3, []⟩, ⟨2, []⟩], [⟨⟨⟨[3], [], [⟨0, [0, 1, 2].map some⟩, ⟨1, [7, 7, 8].map some⟩, ⟨2, [4, 4, 5].map some⟩], .polygons, 3⟩, [0, 1, 1]⟩, [109]⟩], [0]⟩, by decide, by decide⟩

end Verif.FMesh
