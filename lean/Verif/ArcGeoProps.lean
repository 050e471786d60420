import Verif.ArcGeoLemmas

/-!
# C178: geometries and controllers are the same after saving and loading

Wanted: a geometry is loaded with its mesh or its splines, and a controller with its skin or morpher, together with their common parts.
-/

namespace Verif.FArc

open Verif.FEff (Text text)
open Verif.FConv (Ov DateTime Formats shown)

/-- **C178, partial.** What is written for a geometry with a mesh is read back: its common part and its mesh, as in C147. Saving leaves the geometry as it was, as in C145. Missing: what C147 leaves out. -/
theorem geometry_mesh_roundtrip_partial (ov : Ov) {fmt rnd} (hf : Formats fmt rnd) (now now' : DateTime) (hn : GoodDate now) (warn err : Bool) (e : Ent) (M : GMesh) (sets : Nat → Int) (positions : Nat)
    (ts : List FExtra.Tech) (es : List FExtra.EType) (hx : e.extra = ⟨[], ts⟩ :: es) (h : GoodEnt ov rnd e) (ht : e.target = []) (hM : GoodMesh M sets positions) (hid : M.id = e.id) :
    ∃ n N b, writeGeo ov fmt now ⟨e, .mesh M⟩ = some (n, ⟨{ e with
          asset := e.asset.map fun a => { a with modified := now }
          extra := if e.note = [] then ⟨[], ts⟩ :: es else ⟨[], withoutTech ts⟩ :: es }, .mesh M⟩) ∧
      loadGeo ov warn err now' n = some ⟨⟨entAfter ov rnd now e (extraAfter e ts es), .mesh N⟩, !(warn && M.sets.isEmpty), if b then [.meshError] else []⟩ ∧
      N.id = e.id ∧ N.sources = loadedSources rnd M M.sets ∧ N.vertex = M.vertex ∧ List.Forall₂ (SameSet M) M.sets N.sets ∧ N.convex = false ∧ N.hull = [] ∧ (b = true ↔ ∃ P ∈ M.sets, Reported P) := by
  obtain ⟨k, r, r1, r2, r3, r4, r5, r6, r7, r8, r9, r10⟩ := mesh_roundtrip_partial ov warn err hf M sets positions hM
  have hnm : k.name = text "mesh" ∨ k.name = text "convex_mesh" := by
    unfold loadMeshOf at r2
    by_cases e1 : k.name = text "mesh"
    · exact Or.inl e1
    · rw [if_neg e1] at r2
      by_cases e2 : k.name = text "convex_mesh"
      · exact Or.inr e2
      · rw [if_neg e2] at r2; cases r2
  obtain ⟨n, ns, w1, w2, w3⟩ := geo_frame ov hf now now' hn warn err ⟨e, .mesh M⟩ ts es hx h ht [k] (by simp only [writeGeoBody, r1, Option.map_some])
    (by intro x hx; rw [List.mem_singleton.1 hx]; unfold geoElem; rcases hnm with e | e <;> simp [e])
  refine ⟨n, r.mesh, r.error, w1, ?_, by rw [r3, hid], r4, r5, r6, r7, r8, r10⟩
  rw [w3, if_neg (by simp), List.singleton_append]
  have : (entAfter ov rnd now e (extraAfter e ts es)).id = M.id := hid.symm
  rw [loadGeoBody_mesh (by rcases hnm with e | e <;> rw [e] <;> exact text_ne (by decide)), this, r2, Option.map_some, r9]

example : GoodEnt .wrap (fun _ => 3 / 2) { id := text "g", note := text "n" } ∧ GoodMesh sampleMesh (fun _ => 4) 3 ∧ sampleMesh.id = ({ id := text "g", note := text "n" } : Ent).id :=
  ⟨newEnt_good _ _ _ _ (hplain _ (by decide +kernel)) (hplain _ (by decide +kernel)), sampleMesh_good, rfl⟩

/-- **C178, partial.** What is written for a geometry with one valid spline is read back: its common part and the spline, as in C172. Missing: what C172 leaves out. -/
theorem geometry_spline_roundtrip_partial (ov : Ov) {fmt rnd} (hf : Formats fmt rnd) (now now' : DateTime) (hn : GoodDate now) (warn err : Bool) (e : Ent) (s : QSpline)
    (ts : List FExtra.Tech) (es : List FExtra.EType) (hx : e.extra = ⟨[], ts⟩ :: es) (h : GoodEnt ov rnd e) (ht : e.target = []) (hh : e.id.head? ≠ some 35) (hs : GoodSpline s) (hv : validSpline warn s = true) :
    ∃ n g', writeGeo ov fmt now ⟨e, .spline [s]⟩ = some (n, g') ∧
      loadGeo ov warn err now' n = some ⟨⟨entAfter ov rnd now e (extraAfter e ts es), .spline [shownSpline (shown rnd) s]⟩, true, []⟩ := by
  obtain ⟨k, k1, k2, k3⟩ := spline_back ov warn hf e.id h.id hh 0 s hs { geo := {}, status := true }
  obtain ⟨n, ns, w1, w2, w3⟩ := geo_frame ov hf now now' hn warn err ⟨e, .spline [s]⟩ ts es hx h ht [k]
    (by unfold writeGeoBody; simp only [writeSplines, k1, Option.bind_some, Option.map_some])
    (by intro x hx; rw [List.mem_singleton.1 hx]; unfold geoElem; simp [k2])
  refine ⟨n, _, w1, ?_⟩
  rw [w3, if_neg (by simp), List.singleton_append]
  rw [loadGeoBody_spline k2]
  have rest : ∀ (l : List Node) (r : SplineLoad), (∀ k ∈ l, k.name = text "extra") → l.foldlM (loadSplineNode ov warn) r = some r := by
    intro l
    induction l with
    | nil => intro r _; rfl
    | cons a l ih =>
      intro r hl
      rw [List.foldlM_cons]
      have : loadSplineNode ov warn r a = some r := by
        unfold loadSplineNode
        rw [if_pos (by rw [hl a (by simp)]; exact text_ne (by decide))]
      rw [this]
      exact ih r fun b hb => hl b (List.mem_cons_of_mem _ hb)
  unfold loadSplines
  rw [List.foldlM_cons, k3]
  simp only [Option.bind_eq_bind, Option.bind_some]
  rw [rest ns _ w2, Option.map_some]
  unfold afterSpline
  rw [if_pos hv]

example : GoodEnt .wrap (fun _ => 3 / 2) { id := text "s", note := [] } ∧ GoodSpline sampleBezier ∧ validSpline true sampleBezier = true :=
  ⟨newEnt_good _ _ _ _ (hplain _ (by decide +kernel)) (hplain _ (by decide +kernel)), sampleBezier_good, by decide +kernel⟩

/-- **C178.** A geometry without mesh and spline is loaded as such, with a report. -/
theorem geometry_empty_roundtrip (ov : Ov) {fmt rnd} (hf : Formats fmt rnd) (now now' : DateTime) (hn : GoodDate now) (warn err : Bool) (e : Ent)
    (ts : List FExtra.Tech) (es : List FExtra.EType) (hx : e.extra = ⟨[], ts⟩ :: es) (h : GoodEnt ov rnd e) (ht : e.target = []) :
    ∃ n g', writeGeo ov fmt now ⟨e, .none⟩ = some (n, g') ∧ loadGeo ov warn err now' n = some ⟨⟨entAfter ov rnd now e (extraAfter e ts es), .none⟩, true, [.emptyGeometry]⟩ := by
  obtain ⟨n, ns, w1, w2, w3⟩ := geo_frame ov hf now now' hn warn err ⟨e, .none⟩ ts es hx h ht [] rfl (by simp)
  exact ⟨n, _, w1, w3⟩

/-- **C178.** An element of another name gives a geometry without content, with one error. -/
theorem geometry_other_element (ov : Ov) (warn err : Bool) (now : DateTime) (n : Node) (e : Ent) (hn : n.name ≠ text "geometry") (he : loadEnt ov now {} n = some e) :
    loadGeo ov warn err now n = some ⟨{ ent := e }, true, [.unknownElement]⟩ := by
  unfold loadGeo
  rw [he, Option.bind_some, if_pos hn]

/-- **C178.** At most one of the elements of a geometry counts: what comes after the first mesh is not looked at. -/
theorem geometry_first_mesh (ov : Ov) (warn err : Bool) (now : DateTime) (as : List (Text × Text)) (t : Text) (pre : List Node) (k : Node) (post post' : List Node) (hp : ∀ x ∈ pre, geoElem x = false)
    (hk : k.name = text "mesh" ∨ k.name = text "convex_mesh") (e : Ent)
    (h1 : loadEnt ov now {} (.elem (text "geometry") as t (pre ++ k :: post)) = some e) (h2 : loadEnt ov now {} (.elem (text "geometry") as t (pre ++ k :: post')) = some e) :
    loadGeo ov warn err now (.elem (text "geometry") as t (pre ++ k :: post)) = loadGeo ov warn err now (.elem (text "geometry") as t (pre ++ k :: post')) := by
  have hs : k.name ≠ text "spline" := by rcases hk with e | e <;> rw [e] <;> exact text_ne (by decide)
  have hd : ∀ post : List Node, (pre ++ k :: post).dropWhile (fun k => !geoElem k) = k :: post := by
    intro post
    rw [List.dropWhile_append_of_pos fun x hx => by rw [hp x hx]; rfl, List.dropWhile_cons_of_neg]
    unfold geoElem
    rcases hk with e | e <;> simp [e]
  unfold loadGeo
  rw [h1, h2, Option.bind_some, Option.bind_some]
  simp only [kids_elem, hd, Node.name, ne_eq, not_true_eq_false, if_false]
  rw [loadGeoBody_mesh hs, loadGeoBody_mesh hs]

/-! ## Controllers -/

/-- **C178, partial.** What is written for a controller with a skin is read back: its common part and its skin, as in C153. Missing: what C153 leaves out. -/
theorem controller_skin_roundtrip_partial (ov : Ov) {fmt rnd} (hf : Formats fmt rnd) (now now' : DateTime) (hn : GoodDate now) (stack : List FUri.Uri) (d : MorphDoc) (e : Ent) (s : Skin)
    (ts : List FExtra.Tech) (es : List FExtra.EType) (hx : e.extra = ⟨[], ts⟩ :: es) (h : GoodEnt ov rnd e) (ht : e.target = []) (hs : GoodSkin ov e.id s) :
    ∃ n, writeController ov fmt now stack ⟨e, .skin s⟩ = some (n, ⟨{ e with
          asset := e.asset.map fun a => { a with modified := now }
          extra := if e.note = [] then ⟨[], ts⟩ :: es else ⟨[], withoutTech ts⟩ :: es }, .skin s⟩) ∧
      loadController ov d now' n = some { ctrl := ⟨entAfter ov rnd now e (extraAfter e ts es), .skin (skinAfter rnd s)⟩, sids := true } := by
  obtain ⟨k, k1, k2, k3⟩ := skin_roundtrip_partial ov hf stack e.id s hs
  obtain ⟨n, w1, w2⟩ := ctrl_frame ov hf now now' hn stack d ⟨e, .skin s⟩ ts es hx h ht k (by simp only [writeCtrlBody, k1, Option.map_some]) (Or.inl k2)
  refine ⟨n, w1, ?_⟩
  rw [w2, if_pos k2]
  simp only [loadCtrlBody, k3, Option.map_some]

example : ∃ s, GoodEnt .wrap (fun _ => 3 / 2) { id := text "c", note := [] } ∧ GoodSkin .wrap ({ id := text "c", note := [] } : Ent).id s := by
  obtain ⟨s, -, h⟩ := sampleSkin_good
  exact ⟨s, newEnt_good _ _ _ _ (hplain _ (by decide +kernel)) (hplain _ (by decide +kernel)), h⟩

/-- **C178, partial.** What is written for a controller with a morpher is read back and linked: its common part, and the morpher, if it deforms a geometry and all its targets match, as in C154. Missing: what C154 leaves out. -/
theorem controller_morph_roundtrip_partial (ov : Ov) {fmt rnd} (hf : Formats fmt rnd) (now now' : DateTime) (hn : GoodDate now) (stack : List FUri.Uri) (d : MorphDoc) (hd : GoodIds d) (e : Ent) (m : Morph)
    (ts : List FExtra.Tech) (es : List FExtra.EType) (hx : e.extra = ⟨[], ts⟩ :: es) (h : GoodEnt ov rnd e) (ht : e.target = []) (hm : GoodMorph d e.id m) (hu : m.method ≠ .unknown) (i : Text) (g : FCtrl.Geom)
    (hb : m.base = some (false, i)) (hg : d.geoms.lookup i = some g) (hts : ∀ t ∈ m.targets, Morphs d g t) :
    ∃ n src m', writeController ov fmt now stack ⟨e, .morph m⟩ = some (n, ⟨{ e with
          asset := e.asset.map fun a => { a with modified := now }
          extra := if e.note = [] then ⟨[], ts⟩ :: es else ⟨[], withoutTech ts⟩ :: es }, .morph m⟩) ∧
      loadController ov d now' n = some { ctrl := ⟨entAfter ov rnd now e (extraAfter e ts es), .morph m'⟩, source := src } ∧
      linkMorph d src m' = (true, { m with targets := shownTargets rnd m.targets }) := by
  obtain ⟨src, m', k1, k2⟩ := morph_kept ov hf d hd e.id m hm hu i g hb hg hts
  obtain ⟨n, w1, w2⟩ := ctrl_frame ov hf now now' hn stack d ⟨e, .morph m⟩ ts es hx h ht (writeMorph fmt e.id m) rfl (Or.inr rfl)
  refine ⟨n, src, m', w1, ?_, k2⟩
  rw [w2, if_neg (by unfold writeMorph; exact text_ne (by decide)), if_pos (c := (writeMorph fmt e.id m).name = text "morph") rfl]
  simp only [loadCtrlBody, k1, Option.map_some]

example : GoodEnt .wrap (fun _ => 3 / 2) { id := text "m", note := [] } ∧ GoodIds morphSampleDoc ∧
    GoodMorph morphSampleDoc ({ id := text "m", note := [] } : Ent).id { method := .relative, base := some (false, text "head"), targets := [(some (text "smile"), 1 / 2), (some (text "head"), 1)] } :=
  ⟨newEnt_good _ _ _ _ (hplain _ (by decide +kernel)) (hplain _ (by decide +kernel)), sampleMorph_good.1, sampleMorph_good.2.1⟩

/-- **C178.** With both elements the skin counts, and the conflict is reported. -/
theorem controller_skin_wins (ov : Ov) (d : MorphDoc) (now : DateTime) (n s m : Node) (e : Ent) (r : SkinResult) (hn : n.name = text "controller") (hs : n.child (text "skin") = some s) (hm : n.child (text "morph") = some m)
    (he : loadEnt ov now {} n = some e) (hr : loadSkin ov s = some r) :
    loadController ov d now n = some { ctrl := ⟨e, .skin r.skin⟩, status := r.ok, sids := r.sids, reports := [.conflict] } := by
  unfold loadController
  rw [he, Option.bind_some, if_neg (by simp [hn]), hs, hm, if_pos (by simp)]
  simp only [loadCtrlBody, hr, Option.map_some]

/-- A file with both. -/
def bothFile : Node := .elem (text "controller") [(text "id", text "c")] [] [skinFile (text "1") [valueChild (text "vcount") (text "1"), valueChild (text "v") (text "1 0")], leaf (text "morph")]

example : (loadController .wrap {} sampleDate bothFile).map (fun r => (r.reports, r.status, match r.ctrl.body with | .skin s => s.verts.length | _ => 0)) = some ([.conflict], true, 1) := by decide +kernel

/-- A file with two meshes, of which the second has no vertices: alone that is undefined. -/
def twoMeshes (ks : List Node) : Node := .elem (text "geometry") [(text "id", text "g")] [] ([.elem (text "convex_mesh") [(text "convex_hull_of", text "#a")] [] []] ++ ks)

example : (loadGeo .wrap false false sampleDate (twoMeshes [])).map (fun r => (r.reports, r.status)) = some ([], true) ∧
    (loadGeo .wrap false false sampleDate (twoMeshes [leaf (text "mesh")])).map (fun r => (r.reports, r.status)) = some ([], true) ∧
    (loadGeo .wrap false false sampleDate (.elem (text "geometry") [(text "id", text "g")] [] [leaf (text "mesh")])).isNone = true := by
  refine ⟨?_, ?_, ?_⟩ <;> decide +kernel

end Verif.FArc
