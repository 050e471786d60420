import Verif.ArcGeo
import Verif.ArcPlainEnt
import Verif.ArcMeshProps
import Verif.ArcSplineProps
import Verif.ArcMorphProps
import Verif.ArcSkinProps
import Verif.ArcTreeProps

/-! Lemmas for `ArcGeoProps.lean`. -/

namespace Verif.FArc

open Verif.FEff (Text text)
open Verif.FConv (Ov DateTime Formats shown)

theorem loadGeoBody_spline {ov : Ov} {warn err : Bool} {e : Ent} {k : Node} {ks : List Node} (h : k.name = text "spline") :
    loadGeoBody ov warn err e (k :: ks) = (loadSplines ov warn (k :: ks)).map fun r => ⟨{ ent := e, body := .spline r.geo.splines }, r.status, []⟩ := if_pos h

theorem loadGeoBody_mesh {ov : Ov} {warn err : Bool} {e : Ent} {k : Node} {ks : List Node} (h : k.name ≠ text "spline") :
    loadGeoBody ov warn err e (k :: ks) = (loadMeshOf ov warn err e.id k).map fun r => ⟨{ ent := e, body := .mesh r.mesh }, r.status, if r.error then [.meshError] else []⟩ := if_neg h

/-- What `LoadGeometry` sees of the element that is written. -/
theorem geo_frame (ov : Ov) {fmt rnd} (hf : Formats fmt rnd) (now now' : DateTime) (hn : GoodDate now) (warn err : Bool) (g : GeoEnt) (ts : List FExtra.Tech) (es : List FExtra.EType)
    (hx : g.ent.extra = ⟨[], ts⟩ :: es) (h : GoodEnt ov rnd g.ent) (ht : g.ent.target = []) (ks : List Node) (hk : writeGeoBody fmt g.ent.id g.body = some ks) (hg : ∀ k ∈ ks, geoElem k = true) :
    ∃ n ns, writeGeo ov fmt now g = some (n, { g with ent := { g.ent with
          asset := g.ent.asset.map fun a => { a with modified := now }
          extra := if g.ent.note = [] then ⟨[], ts⟩ :: es else ⟨[], withoutTech ts⟩ :: es } }) ∧
      (∀ k ∈ ns, k.name = text "extra") ∧
      loadGeo ov warn err now' n = loadGeoBody ov warn err (entAfter ov rnd now g.ent (extraAfter g.ent ts es)) (if ks = [] then [] else ks ++ ns) := by
  obtain ⟨as, ns, h1, h2, h3, h4⟩ := ent_back ov hf now now' hn (text "geometry") g.ent ts es hx h ht
  refine ⟨_, ns, by unfold writeGeo; rw [hk, Option.bind_some, h3, Option.map_some], h2, ?_⟩
  have hne : ∀ k ∈ ks, k.name ≠ text "asset" ∧ k.name ≠ text "extra" := by
    intro k hk
    have := hg k hk
    unfold geoElem at this
    rcases of_decide_eq_true this with e | e | e <;> rw [e] <;> exact ⟨text_ne (by decide), text_ne (by decide)⟩
  have hl := h4 ks [] hne (by simp)
  rw [List.append_nil] at hl
  unfold loadGeo
  rw [hl, Option.bind_some, if_neg (by simp [Node.name]), kids_elem]
  congr 1
  have skip : ∀ (l : List Node) (a : Text), (∀ k ∈ l, k.name = a) → a ≠ text "mesh" → a ≠ text "convex_mesh" → a ≠ text "spline" → ∀ k ∈ l, (!geoElem k) = true := by
    intro l a hl e1 e2 e3 k hk
    unfold geoElem
    rw [hl k hk]
    simp [e1, e2, e3]
  have s1 := skip as _ h1 (text_ne (by decide)) (text_ne (by decide)) (text_ne (by decide))
  have s2 := skip ns _ h2 (text_ne (by decide)) (text_ne (by decide)) (text_ne (by decide))
  rw [List.append_assoc, List.dropWhile_append_of_pos s1]
  cases ks with
  | nil => rw [List.nil_append, if_pos rfl, List.dropWhile_eq_nil_iff]; exact s2
  | cons k ks => rw [if_neg (by simp), List.cons_append, List.dropWhile_cons_of_neg (by rw [hg k (by simp)]; simp)]

/-- What `LoadController` sees of the element that is written. -/
theorem ctrl_frame (ov : Ov) {fmt rnd} (hf : Formats fmt rnd) (now now' : DateTime) (hn : GoodDate now) (stack : List FUri.Uri) (d : MorphDoc) (c : CtrlEnt) (ts : List FExtra.Tech) (es : List FExtra.EType)
    (hx : c.ent.extra = ⟨[], ts⟩ :: es) (h : GoodEnt ov rnd c.ent) (ht : c.ent.target = []) (k : Node) (hk : writeCtrlBody ov fmt stack c.ent.id c.body = some [k]) (hne : k.name = text "skin" ∨ k.name = text "morph") :
    ∃ n, writeController ov fmt now stack c = some (n, { c with ent := { c.ent with
          asset := c.ent.asset.map fun a => { a with modified := now }
          extra := if c.ent.note = [] then ⟨[], ts⟩ :: es else ⟨[], withoutTech ts⟩ :: es } }) ∧
      loadController ov d now' n = loadCtrlBody ov d (entAfter ov rnd now c.ent (extraAfter c.ent ts es)) [] (if k.name = text "skin" then some k else none) (if k.name = text "morph" then some k else none) := by
  obtain ⟨as, ns, h1, h2, h3, h4⟩ := ent_back ov hf now now' hn (text "controller") c.ent ts es hx h ht
  refine ⟨_, by unfold writeController; rw [hk, Option.bind_some, h3, Option.map_some], ?_⟩
  have hl := h4 [k] [] (by intro x hx; rw [List.mem_singleton.1 hx]; rcases hne with e | e <;> rw [e] <;> exact ⟨text_ne (by decide), text_ne (by decide)⟩) (by simp)
  rw [List.append_nil] at hl
  have find : ∀ a : Text, a ≠ text "asset" → a ≠ text "extra" → (Node.elem (text "controller") (entAttrs true c.ent) [] (as ++ [k] ++ ns)).child a = if k.name = a then some k else none := by
    intro a ha hb
    unfold Node.child
    rw [kids_elem, List.find?_append, List.find?_append]
    have e1 : as.find? (fun c => decide (c.name = a)) = none := by
      rw [List.find?_eq_none]; intro k hk; simp [h1 k hk, ha.symm]
    have e2 : ns.find? (fun c => decide (c.name = a)) = none := by
      rw [List.find?_eq_none]; intro k hk; simp [h2 k hk, hb.symm]
    rw [e1, e2, Option.none_or, Option.or_none, List.find?_singleton]
    split <;> rename_i e
    · rw [if_pos (of_decide_eq_true e)]
    · rw [if_neg (by simpa using e)]
  unfold loadController
  rw [hl, Option.bind_some, if_neg (by simp [Node.name]), find _ (text_ne (by decide)) (text_ne (by decide)), find _ (text_ne (by decide)) (text_ne (by decide))]
  congr 1
  rcases hne with e | e
  · rw [if_neg]
    rw [if_neg (c := k.name = text "morph") (by rw [e]; exact text_ne (by decide))]
    simp
  · rw [if_neg]
    rw [if_neg (c := k.name = text "skin") (by rw [e]; exact text_ne (by decide))]
    simp

end Verif.FArc
