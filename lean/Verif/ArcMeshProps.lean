import Verif.ArcMeshParts

/-! # Saving and loading of meshes (C147) -/

namespace Verif.FArc

open Verif.FEff (Text text)
open Verif.FConv (Ov Formats shown)
open Verif.FPoly (Prim Face faceSize)
open Verif.Enum (GeometryInput)

/-- **C147.** A source of a geometry that is saved and loaded has the same id, name, stride and extra tree, and the numbers shown by the text; it has no type until an input gives it one. -/
theorem geometry_source_partial (ov : Ov) {fmt rnd} (hf : Formats fmt rnd) (s : GSource) (h : GoodSource s) :
    ∃ n, writeSource fmt s = some n ∧ loadSource ov n = some { s with type := .unknown, data := s.data.map (shown rnd) } := by
  obtain ⟨n, h1, -, h3⟩ := loadSource_write ov hf h
  exact ⟨n, h1, h3⟩

/-- **C147.** A mesh that is saved and loaded into a new mesh has the same per-vertex sources and polygon sets, with the set numbers of all inputs, and the same sources: their ids, names, strides and extra trees, the numbers shown
by the text, and the types of those that are used. It is not convex. An error is reported only for polygon sets without faces and for lines in several faces; the load fails only if warnings are fatal and there is no polygon set. -/
theorem mesh_roundtrip_partial (ov : Ov) (warn err : Bool) {fmt rnd} (hf : Formats fmt rnd) (M : GMesh) (sets : Nat → Int) (positions : Nat) (hM : GoodMesh M sets positions) :
    ∃ n r, writeMesh fmt M = some n ∧ loadMeshOf ov warn err M.id n = some r ∧ r.mesh.id = M.id ∧ r.mesh.sources = loadedSources rnd M M.sets ∧ r.mesh.vertex = M.vertex ∧
      List.Forall₂ (SameSet M) M.sets r.mesh.sets ∧ r.mesh.convex = false ∧ r.mesh.hull = [] ∧ r.status = !(warn && M.sets.isEmpty) ∧ (r.error = true ↔ ∃ P ∈ M.sets, Reported P) := by
  obtain ⟨p, hpv, hone, src, hsrc, hpos⟩ := hM.position
  have hvne : M.vertex ≠ [] := fun e => by rw [e] at hpv; simp at hpv
  obtain ⟨ns, hns, hnames, hload⟩ := loadSets_write ov rnd hM M.sets (fun s => decide (s ∈ M.vertex)) (fun _ h => h) (fun s hs => by simpa using hs)
  obtain ⟨hs1, hs2⟩ := sources_written ov hf M.sources hM.sources
  have hw : writeMesh fmt M = some (.elem (text "mesh") [] [] (M.sources.filterMap (writeSource fmt) ++ [writeVertices M] ++ ns)) := by
    unfold writeMesh
    rw [if_neg (by rcases hM.own with h | h <;> simp [h]), hns]
    rfl
  have hsrcPrim : primOf (text "source") = none := by decide +kernel
  have hverPrim : primOf (text "vertices") = none := by decide +kernel
  have hsetSource : ∀ n ∈ ns, n.name ≠ text "source" := fun n hn e => by have := hnames n hn; rw [e, hsrcPrim] at this; simp at this
  have hsetVertices : ∀ n ∈ ns, n.name ≠ text "vertices" := fun n hn e => by have := hnames n hn; rw [e, hverPrim] at this; simp at this
  have hvn : (writeVertices M).name = text "vertices" := rfl
  have hch : (Node.elem (text "mesh") [] [] (M.sources.filterMap (writeSource fmt) ++ [writeVertices M] ++ ns)).children (text "source") = M.sources.filterMap (writeSource fmt) := by
    have : (Node.elem (text "mesh") [] [] (M.sources.filterMap (writeSource fmt) ++ [writeVertices M] ++ ns)).children (text "source") =
      (M.sources.filterMap (writeSource fmt) ++ [writeVertices M] ++ ns).filter fun c => decide (c.name = text "source") := rfl
    rw [this, List.filter_append, List.filter_append]
    have h1 : (M.sources.filterMap (writeSource fmt)).filter (fun c => decide (c.name = text "source")) = M.sources.filterMap (writeSource fmt) := by
      rw [List.filter_eq_self]
      intro n hn
      exact decide_eq_true (hs1 n hn)
    have h2 : [writeVertices M].filter (fun c => decide (c.name = text "source")) = [] := by
      rw [List.filter_cons, if_neg (by rw [hvn, decide_eq_true_eq, text_inj]; decide)]
      rfl
    have h3 : ns.filter (fun c => decide (c.name = text "source")) = [] := by
      rw [List.filter_eq_nil_iff]
      intro n hn
      simpa using hsetSource n hn
    rw [h1, h2, h3]
    simp
  have hver : (Node.elem (text "mesh") [] [] (M.sources.filterMap (writeSource fmt) ++ [writeVertices M] ++ ns)).child (text "vertices") = some (writeVertices M) := by
    have : (Node.elem (text "mesh") [] [] (M.sources.filterMap (writeSource fmt) ++ [writeVertices M] ++ ns)).child (text "vertices") =
      (M.sources.filterMap (writeSource fmt) ++ [writeVertices M] ++ ns).find? fun c => decide (c.name = text "vertices") := rfl
    rw [this, List.append_assoc, List.find?_append]
    have h1 : (M.sources.filterMap (writeSource fmt)).find? (fun c => decide (c.name = text "vertices")) = none := by
      rw [List.find?_eq_none]
      intro n hn
      rw [hs1 n hn, decide_eq_true_eq, text_inj]
      decide
    rw [h1, Option.none_or, List.singleton_append]
    exact List.find?_cons_of_pos (p := fun c : Node => decide (c.name = text "vertices")) (decide_eq_true hvn)
  have hpart : (M.sources.map fun s => ({ s with type := .unknown, data := s.data.map (shown rnd) } : GSource)) = partSources rnd M fun s => decide (s ∈ ([] : List Nat)) := by
    apply List.ext_getElem?
    intro i
    rw [List.getElem?_map, partSources_get]
    cases M.sources[i]? with
    | none => rfl
    | some x => simp
  have hlv := loadVertices_write rnd hM M.vertex [] false rfl
  simp only [List.nil_append, Bool.false_or] at hlv
  have hposTrue : (M.vertex.any fun s => ((M.sources[s]?).map fun src => decide (src.type = .position)).getD false) = true := by
    rw [List.any_eq_true]
    refine ⟨p, hpv, ?_⟩
    rw [hsrc, Option.map_some, Option.getD_some, decide_eq_true_eq]
    exact (hone p src hsrc).2 rfl
  rw [hposTrue] at hlv
  obtain ⟨Qs, e, hq1, hq2, hq3⟩ := hload ⟨partSources rnd M fun s => decide (s ∈ M.vertex), [], true, false⟩ rfl
  have hkids : (Node.elem (text "mesh") [] [] (M.sources.filterMap (writeSource fmt) ++ [writeVertices M] ++ ns)).kids = M.sources.filterMap (writeSource fmt) ++ [writeVertices M] ++ ns := rfl
  have hskip : ∀ (l : List Node) (st : MeshState), (∀ n ∈ l, primOf n.name = none) → l.foldlM (loadChild ov M.vertex) st = some st := by
    intro l
    induction l with
    | nil => intro st _; rfl
    | cons n l ih =>
      intro st h
      have : loadChild ov M.vertex st n = some st := by
        unfold loadChild
        rw [h n (by simp)]
      rw [List.foldlM_cons, this]
      exact ih st fun m hm => h m (by simp [hm])
  have hfold : (M.sources.filterMap (writeSource fmt) ++ [writeVertices M] ++ ns).foldlM (loadChild ov M.vertex) ⟨partSources rnd M fun s => decide (s ∈ M.vertex), [], true, false⟩ =
      some ⟨partSources rnd M fun s => decide (s ∈ M.vertex) || M.sets.any fun P => P.inputs.any fun x => decide (x.source = some s), Qs, true, e⟩ := by
    rw [List.foldlM_append, hskip, Option.bind_eq_bind, Option.bind_some, hq1]
    · simp
    · intro n hn
      rcases List.mem_append.1 hn with hn | hn
      · rw [hs1 n hn]; exact hsrcPrim
      · rw [List.mem_singleton.1 hn, hvn]; exact hverPrim
  have hvs : (vertexSetNodes (writeVertices M)).foldlM (loadVertexSet ov (partSources rnd M fun s => decide (s ∈ M.vertex) || M.sets.any fun P => P.inputs.any fun x => decide (x.source = some s)) M.vertex) Qs =
      some (Qs.map (putAll sets M.vertex)) := by
    rw [vertices_sets]
    by_cases hne : M.sets = []
    · rw [vertexSetNode_none hne]
      rw [hne] at hq2
      cases hq2
      rfl
    · exact loadVertexSets_write ov hM hne (partSources_ids ..) M.vertex Qs fun _ h => h
  have hempty : Qs.isEmpty = M.sets.isEmpty := by
    have := hq2.length_eq
    cases hQ : Qs <;> cases hS : M.sets <;> rw [hQ, hS] at this <;> simp at this ⊢
  have hve : M.vertex.isEmpty = false := by simpa using hvne
  refine ⟨_, ⟨⟨M.id, loadedSources rnd M M.sets, M.vertex, Qs.map (putAll sets M.vertex), false, []⟩, !(warn && M.sets.isEmpty), e⟩, hw, ?_, rfl, rfl, rfl, ?_, rfl, rfl, rfl, ?_⟩
  · unfold loadMeshOf
    rw [if_pos (name_elem ..)]
    unfold loadMesh
    rw [if_neg (by decide), Option.bind_some, if_neg (by simp), hch, hs2, Option.bind_some, hver, Option.bind_some, vertices_inputs, hpart, hlv, Option.bind_some]
    simp only
    rw [if_neg (by decide), hkids]
    simp only [Bool.not_true, Bool.false_or, hve, Bool.and_false, Bool.not_false]
    rw [hfold, Option.bind_some]
    simp only
    rw [hvs, hempty]
    rfl
  · rw [List.forall₂_map_right_iff]
    exact (List.forall₂_and_left _ _ |>.2 ⟨fun _ h => h, hq2⟩).imp fun P Q h => putAll_same hM h.1 h.2
  · rw [hq3]
    simp

/-- A mesh with positions and normals, a square with a hole and a triangle in one polygon set, and a triangle in another; the positions have the set number 4. -/
def sampleMesh : GMesh :=
  ⟨text "g", [⟨text "p", text "points", .position, 3, [0, 0, 0, 1, 0, 0, 0, 1, 0], [⟨[], [⟨text "MAX", .mk [] [] [] [.mk (text "a") (text "b") [] []]⟩]⟩]⟩, ⟨text "n", [], .normal, 3, [0, 0, 1], FExtra.newExtra⟩], [0],
    [⟨.polygons, [⟨some 0, 4, 0, [0, 1, 2, 0, 2, 1, 0, 1, 2, 0]⟩, ⟨some 1, 0, 2, [0, 0, 0, 0, 0, 0, 0, 0, 0, 0]⟩], [4, 3, 3], [1], text "red", FExtra.newExtra⟩,
      ⟨.polygons, [⟨some 1, 0, 1, [0, 0, 0]⟩, ⟨some 0, 4, 0, [0, 1, 2]⟩], [3], [], [], FExtra.newExtra⟩], true, []⟩

theorem sampleMesh_good : GoodMesh sampleMesh (fun _ => 4) 3 := by
  have hnew : Saveable FExtra.newExtra := by
    refine ⟨⟨_, rfl, rfl⟩, by decide +kernel, fun t ht => ?_⟩
    simp only [FExtra.newExtra, List.mem_cons, List.not_mem_nil, or_false] at ht
    subst ht
    exact ⟨plain_nil, by simp, by simp⟩
  have htech : SaveTech ⟨text "MAX", .mk [] [] [] [.mk (text "a") (text "b") [] []]⟩ := by
    refine ⟨hplain _ (by decide +kernel), rfl, fun c hc m hm => ?_⟩
    simp only [FExtra.Node.children, List.mem_cons, List.not_mem_nil, or_false] at hc
    subst hc
    refine (FExtra.within_iff SaveHere _).2 ⟨⟨⟨⟨97, rfl, .inl ((FExtra.letter_iff 97).2 (.inl ⟨by decide, by decide⟩))⟩, ?_⟩, hplain _ (by decide +kernel), fun h => h.2 rfl, by simp [FExtra.Node.attrs],
      by simp [FExtra.Node.attrs]⟩, fun c hc => by simp [FExtra.Node.children] at hc⟩ m hm
    intro d hd
    have : d = 97 := List.mem_singleton.1 hd
    subst this
    exact .inl ((FExtra.letter_iff 97).2 (.inl ⟨by decide, by decide⟩))
  refine ⟨Or.inr rfl, hplain _ (by decide +kernel), by decide +kernel, ?_, ⟨by decide, ?_⟩, ⟨0, by decide, ?_, _, rfl, by decide⟩, ?_, ?_, ?_, ?_⟩
  · intro src hs
    simp only [sampleMesh, List.mem_cons, List.not_mem_nil, or_false] at hs
    rcases hs with rfl | rfl
    · exact ⟨⟨hplain _ (by decide +kernel), by decide +kernel, by decide +kernel⟩, hplain _ (by decide +kernel), by decide, by decide, by decide, _, rfl, by decide +kernel, by simpa using htech⟩
    · exact ⟨⟨hplain _ (by decide +kernel), by decide +kernel, by decide +kernel⟩, plain_nil, by decide, by decide, by decide, [], rfl, by simp, by simp⟩
  · intro s hs
    have : s = 0 := by simpa [sampleMesh] using hs
    subst this
    exact ⟨_, rfl, by decide⟩
  · intro q src hq
    match q with
    | 0 => have : src.type = .position := by rw [← Option.some.inj hq]
           simp [this]
    | 1 => have : src.type = .normal := by rw [← Option.some.inj hq]
           simp [this]
    | q + 2 => simp [sampleMesh] at hq
  · intro P hP
    simp only [sampleMesh, List.mem_cons, List.not_mem_nil, or_false] at hP
    rcases hP with rfl | rfl
    · refine ⟨by decide, ⟨[(4, [3]), (3, [])], by decide, by decide⟩, by decide +kernel, ?_, by decide +kernel, by decide +kernel, by decide, hplain _ (by decide +kernel), hnew⟩
      intro x hx hp
      simp only [unset, List.map_cons, List.map_nil, List.mem_cons, List.not_mem_nil, or_false] at hx
      rcases hx with rfl | rfl
      · exact absurd hp (by decide)
      · exact ⟨1, _, rfl, rfl, by decide, by decide, by decide +kernel, by decide +kernel, hplain _ (by decide +kernel), by decide, by decide, by decide⟩
    · refine ⟨by decide, ⟨[(3, [])], by decide, by decide⟩, by decide +kernel, ?_, by decide +kernel, by decide +kernel, by decide, plain_nil, hnew⟩
      intro x hx hp
      simp only [unset, List.map_cons, List.map_nil, List.mem_cons, List.not_mem_nil, or_false] at hx
      rcases hx with rfl | rfl
      · exact ⟨1, _, rfl, rfl, by decide, by decide, by decide +kernel, by decide +kernel, hplain _ (by decide +kernel), by decide, by decide, by decide⟩
      · exact absurd hp (by decide)
  · intro s _
    decide
  · intro P hP x hx s hs he
    have : s = 0 := by simpa [sampleMesh] using hs
    subst this
    simp only [sampleMesh, List.mem_cons, List.not_mem_nil, or_false] at hP
    rcases hP with rfl | rfl <;> simp only [List.mem_cons, List.not_mem_nil, or_false] at hx <;> rcases hx with rfl | rfl <;> simp at he ⊢
  · intro P hP hp hh c hc
    simp only [sampleMesh, List.mem_cons, List.not_mem_nil, or_false] at hP
    rcases hP with rfl | rfl
    · simp at hh
    · simp at hc
      omega

/-- **C147.** A mesh given as the convex hull of another is loaded as such; its own sources and polygon sets are not written. -/
theorem hull_roundtrip (ov : Ov) (warn err : Bool) (fmt : ℚ → Text) (M : GMesh) (hc : M.convex = true) (hh : M.hull ≠ []) (hp : Plain M.hull) :
    ∃ n, writeMesh fmt M = some n ∧ loadMeshOf ov warn err M.id n = some ⟨⟨M.id, [], [], [], true, M.hull⟩, true, false⟩ := by
  refine ⟨_, if_pos ⟨hc, hh⟩, ?_⟩
  unfold loadMeshOf
  rw [if_neg (by rw [name_elem, text_inj]; decide), if_pos (name_elem ..)]
  unfold loadMesh
  have : prop (Node.elem (text "convex_mesh") [(text "convex_hull_of", M.hull)] [] []) (text "convex_hull_of") = some M.hull := by
    unfold prop
    rw [Option.bind_some, raw_cons, if_pos rfl]
    exact decode_plain hp
  rw [if_pos rfl, this, Option.bind_some, if_pos ⟨rfl, hh⟩]

example : loadMeshOf .wrap false true (text "g") (.elem (text "convex_mesh") [(text "convex_hull_of", text "#h")] [] []) = some ⟨⟨text "g", [], [], [], true, text "#h"⟩, true, false⟩ := by
  obtain ⟨n, h1, h2⟩ := hull_roundtrip .wrap false true (fun _ => []) ⟨text "g", [], [], [], true, text "#h"⟩ rfl (by decide +kernel) (hplain _ (by decide +kernel))
  have : n = .elem (text "convex_mesh") [(text "convex_hull_of", text "#h")] [] [] := (Option.some.inj h1).symm
  rw [← this]
  exact h2

/-- What a program sees of a source: the id, the type, the stride, the numbers, and the types and profiles of the extra tree. -/
structure SeenSource where
  id : Text
  type : GeometryInput
  stride : Nat
  data : List ℚ
  extra : List (Text × List Text)
deriving DecidableEq

/-- What a program sees of a mesh after loading it: the sources, the per-vertex sources, the inputs of the polygon sets, whether it is convex, and whether the load has succeeded. -/
structure SeenMesh where
  sources : List SeenSource
  vertex : List Nat
  sets : List (List View)
  convex : Bool
  status : Bool
deriving DecidableEq

/-- What a program sees of a mesh after saving and loading it, with numbers written as `1.5` and errors fatal, which is the default. -/
def seenMesh (ov : Ov) (M : GMesh) : Option SeenMesh :=
  (writeMesh (fun _ => text "1.5") M).bind fun n => (loadMeshOf ov false true M.id n).map fun r =>
    ⟨r.mesh.sources.map fun s => ⟨s.id, s.type, s.stride, s.data, s.extra.map fun t => (t.name, t.techs.map (·.profile))⟩, r.mesh.vertex, r.mesh.sets.map fun P => views P.inputs, r.mesh.convex, r.status⟩

/-- A mesh with one triangle. -/
def triangle (ty : GeometryInput) (convex : Bool) (extra : FExtra.Extra) : GMesh :=
  ⟨text "g", [⟨text "p", [], .position, 1, [3 / 2, 0, 0], FExtra.newExtra⟩, ⟨text "q", [], ty, 1, [], extra⟩], [0], [⟨.polygons, [⟨some 0, -1, 0, [0, 1, 2]⟩], [3], [], [], FExtra.newExtra⟩], convex, []⟩

/-- **C147, violated.** A convex mesh, as every new mesh is, is not convex after loading, unless it is the hull of another. A source that is not used loses its type, a source of point sizes is lost, and all types of its extra tree are
loaded as one. If a per-vertex source is lost, so are all polygon sets, and the load is reported as a success. A set number of a per-vertex source in the second polygon set is replaced by that in the first. -/
theorem mesh_violated (ov : Ov) :
    seenMesh ov (triangle .normal true FExtra.newExtra) =
      some ⟨[⟨text "p", .position, 1, [3 / 2, 0, 0], [([], [])]⟩, ⟨text "q", .unknown, 1, [], [([], [])]⟩], [0], [[(some 0, -1, 0, [0, 1, 2])]], false, true⟩ ∧
    seenMesh ov (triangle .pointSize false FExtra.newExtra) = some ⟨[⟨text "p", .position, 1, [3 / 2, 0, 0], [([], [])]⟩], [0], [[(some 0, -1, 0, [0, 1, 2])]], false, true⟩ ∧
    seenMesh ov (triangle .normal false [⟨[], []⟩, ⟨text "t", [⟨text "m", .mk [] [] [] []⟩]⟩]) =
      some ⟨[⟨text "p", .position, 1, [3 / 2, 0, 0], [([], [])]⟩, ⟨text "q", .unknown, 1, [], [([], [text "m"])]⟩], [0], [[(some 0, -1, 0, [0, 1, 2])]], false, true⟩ ∧
    seenMesh ov { triangle .pointSize false FExtra.newExtra with vertex := [0, 1] } = some ⟨[⟨text "p", .position, 1, [3 / 2, 0, 0], [([], [])]⟩], [0], [], false, true⟩ ∧
    seenMesh ov { triangle .normal false FExtra.newExtra with sets := [⟨.polygons, [⟨some 0, 4, 0, [0, 1, 2]⟩], [3], [], [], FExtra.newExtra⟩, ⟨.polygons, [⟨some 0, 5, 0, [0, 1, 2]⟩], [3], [], [], FExtra.newExtra⟩] } =
      some ⟨[⟨text "p", .position, 1, [3 / 2, 0, 0], [([], [])]⟩, ⟨text "q", .unknown, 1, [], [([], [])]⟩], [0], [[(some 0, 4, 0, [0, 1, 2])], [(some 0, 4, 0, [0, 1, 2])]], false, true⟩ := by
  refine ⟨?_, ?_, ?_, ?_, ?_⟩ <;> (cases ov <;> decide +kernel)

end Verif.FArc
