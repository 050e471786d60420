import Verif.ArcInstLemmas
import Verif.ArcMeshParts

/-!
# Instances are saved and loaded (C156)
-/

namespace Verif.FArc

open Verif.FEff (Text text)
open Verif.FConv (Ov)
open Verif.Enum (GeometryInput)

/-- **C156, violated.** An instance of a camera, a light or a node is read back without its extra tree. -/
theorem instance_violated (ov : Ov) (stack : List FUri.Uri) (elem : Text) (b : IBase) (h : GoodBase b) :
    (writeInst ov stack elem b).bind (loadInst ov) = some { b with extra := FExtra.newExtra } := by
  unfold writeInst
  rw [(ref_back ov stack h.id).1, Option.map_some, Option.bind_some]
  obtain ⟨u1, u2, u3⟩ := url_attr b elem []
  exact inst_back ov h elem _ [] _ u1 u2 u3 rfl

/-- **C156, partial.** An instance without an extra tree is read back. Missing: its extra tree; see `instance_violated`. -/
theorem instance_roundtrip_partial (ov : Ov) (stack : List FUri.Uri) (elem : Text) (b : IBase) (h : GoodBase b) (he : b.extra = FExtra.newExtra) :
    (writeInst ov stack elem b).bind (loadInst ov) = some b := by
  rw [instance_violated ov stack elem b h]
  obtain ⟨i, s, n, e⟩ := b
  simp only at he
  rw [he]

/-- **C156.** An instance of a material is read back. -/
theorem material_roundtrip (ov : Ov) (stack : List FUri.Uri) (m : MatInst) (h : GoodMat m) : (writeMat ov stack m).bind (loadMat ov) = some m := by
  rw [writeMat_eq ov stack h, Option.bind_some, mat_back ov h]

/-- **C156.** What is read back of an instance of a geometry: with materials, all but the effect parameters that are not written as `param`; without, the materials that are named as the symbols of
the polygons of the mesh and no effect parameters. -/
theorem geometry_kept (ov : Ov) (stack : List FUri.Uri) (elem : Text) (d : InstDoc) (g : GeomInst) (h : GoodGeom g) (hd : ∀ p ∈ (d.meshes.lookup g.base.id).getD [], 0 ∉ p.1) :
    (writeGeom ov stack elem g).bind (loadGeom ov d) =
      some (if g.mats = [] then ⟨g.base, [], named d g.base.id⟩ else { g with params := g.params.filter fun p => decide (p.name = text "param") }) := by
  rw [writeGeom_eq ov stack elem h, Option.bind_some]
  unfold loadGeom
  obtain ⟨u1, u2, u3⟩ := url_attr g.base elem (bindMaterial g.params (g.mats.map matElem) ++ writeExtra g.base.extra)
  have he : (Node.elem elem (baseAttrs g.base ++ [(text "url", 35 :: g.base.id)]) [] (bindMaterial g.params (g.mats.map matElem) ++ writeExtra g.base.extra)).children (text "extra") = writeExtra g.base.extra := by
    rw [children_append, children_other fun k hk => by rw [bindMaterial_name k hk, Ne, text_inj]; decide, children_all fun k hk => extra_named hk, List.nil_append]
  rw [inst_back ov h.base elem _ _ g.base.extra u1 u2 u3 (by rw [he]; exact extra_back h.base.extra), Option.bind_some]
  have hm := materials_back ov d ((d.meshes.lookup g.base.id).getD []) g.base h elem [] (baseAttrs g.base ++ [(text "url", 35 :: g.base.id)]) [] (writeExtra g.base.extra) (by simp)
    fun k hk => by rw [extra_named hk, Ne, text_inj]; decide
  rw [List.nil_append] at hm
  show loadMaterials ov d ((d.meshes.lookup g.base.id).getD []) g.base _ = _
  rw [hm]
  unfold keptGeom
  by_cases hg : g.mats = []
  · rw [if_pos hg, if_pos hg, guess_named d _ hd]
    rfl
  · rw [if_neg hg, if_neg hg]

/-- **C156, partial.** An instance of a geometry with materials is read back if its effect parameters are written as `param`. Missing: other effect parameters, and those of an instance without
materials; see `geometry_violated`. -/
theorem geometry_roundtrip_partial (ov : Ov) (stack : List FUri.Uri) (elem : Text) (d : InstDoc) (g : GeomInst) (h : GoodGeom g) (hd : ∀ p ∈ (d.meshes.lookup g.base.id).getD [], 0 ∉ p.1)
    (hm : g.mats ≠ []) (hp : ∀ p ∈ g.params, p.name = text "param") : (writeGeom ov stack elem g).bind (loadGeom ov d) = some g := by
  rw [geometry_kept ov stack elem d g h hd, if_neg hm, List.filter_eq_self.2 fun p hq => by simpa using hp p hq]

/-- **C156, violated.** What is read back of an instance of a controller: each child node of the techniques of its extra tree is there twice. -/
theorem controller_violated (ov : Ov) (stack : List FUri.Uri) (d : InstDoc) (c : CtrlInst) (h : GoodGeom c.geom) (hr : ∀ u ∈ c.roots, ∃ t, FXml.ValidId true t ∧ FUri.parse ov (35 :: t) = some u) :
    (writeCtrl ov stack c).bind (loadCtrl ov d) =
      some ⟨⟨{ c.geom.base with extra := twice c.geom.base.extra }, if c.geom.mats = [] then [] else c.geom.params.filter fun p => decide (p.name = text "param"), c.geom.mats⟩, c.roots⟩ := by
  unfold writeCtrl
  rw [writeGeom_eq ov stack _ h, Option.map_some, Option.bind_some]
  show loadCtrl ov d (.elem (text "instance_controller") (baseAttrs c.geom.base ++ [(text "url", 35 :: c.geom.base.id)]) []
    (c.roots.map skeletonNode ++ (bindMaterial c.geom.params (c.geom.mats.map matElem) ++ writeExtra c.geom.base.extra) ++ writeExtra c.geom.base.extra)) = _
  rw [← List.append_assoc (c.roots.map skeletonNode), List.append_assoc]
  unfold loadCtrl
  obtain ⟨u1, u2, u3⟩ := url_attr c.geom.base (text "instance_controller")
    (c.roots.map skeletonNode ++ bindMaterial c.geom.params (c.geom.mats.map matElem) ++ (writeExtra c.geom.base.extra ++ writeExtra c.geom.base.extra))
  have hx : ∀ k ∈ writeExtra c.geom.base.extra ++ writeExtra c.geom.base.extra, k.name = text "extra" := by
    intro k hk
    rcases List.mem_append.1 hk with hk | hk <;> exact extra_named hk
  have he : (Node.elem (text "instance_controller") (baseAttrs c.geom.base ++ [(text "url", 35 :: c.geom.base.id)]) []
      (c.roots.map skeletonNode ++ bindMaterial c.geom.params (c.geom.mats.map matElem) ++ (writeExtra c.geom.base.extra ++ writeExtra c.geom.base.extra))).children (text "extra") =
      writeExtra c.geom.base.extra ++ writeExtra c.geom.base.extra := by
    rw [children_append, children_append, children_all hx, children_other fun k hk => by rw [skeleton_name k hk, Ne, text_inj]; decide,
      children_other fun k hk => by rw [bindMaterial_name k hk, Ne, text_inj]; decide]
    rfl
  have hs : (Node.elem (text "instance_controller") (baseAttrs c.geom.base ++ [(text "url", 35 :: c.geom.base.id)]) []
      (c.roots.map skeletonNode ++ bindMaterial c.geom.params (c.geom.mats.map matElem) ++ (writeExtra c.geom.base.extra ++ writeExtra c.geom.base.extra))).children (text "skeleton") =
      c.roots.map skeletonNode := by
    rw [children_append, children_append, children_all skeleton_name, children_other fun k hk => by rw [bindMaterial_name k hk, Ne, text_inj]; decide,
      children_other fun k hk => by rw [hx k hk, Ne, text_inj]; decide, List.append_nil, List.append_nil]
  rw [inst_back ov h.base _ _ _ (twice c.geom.base.extra) u1 u2 u3 (by rw [he]; exact extra_twice h.base.extra), Option.bind_some, hs]
  rw [materials_back ov d [] _ h _ _ _ _ _ (fun k hk => by rw [skeleton_name k hk, Ne, text_inj]; decide) fun k hk => by rw [hx k hk, Ne, text_inj]; decide]
  rw [mapM_back c.roots fun u hu => by obtain ⟨t, h1, h2⟩ := hr u hu; exact root_back ov h1 h2]
  unfold keptGeom
  by_cases hg : c.geom.mats = []
  · rw [if_pos hg, if_pos hg, hg]
    rfl
  · rw [if_neg hg, if_neg hg]
    rfl

/-- **C156, partial.** An instance of a controller with materials is read back. Missing: its extra tree, and effect parameters that are not written as `param`; see `controller_violated`. -/
theorem controller_roundtrip_partial (ov : Ov) (stack : List FUri.Uri) (d : InstDoc) (c : CtrlInst) (h : GoodGeom c.geom) (hr : ∀ u ∈ c.roots, ∃ t, FXml.ValidId true t ∧ FUri.parse ov (35 :: t) = some u)
    (he : c.geom.base.extra = FExtra.newExtra) (hm : c.geom.mats ≠ [] ∨ c.geom.params = []) (hp : ∀ p ∈ c.geom.params, p.name = text "param") :
    (writeCtrl ov stack c).bind (loadCtrl ov d) = some c := by
  rw [controller_violated ov stack d c h hr]
  obtain ⟨⟨⟨i, s, n, e⟩, ps, ms⟩, rs⟩ := c
  simp only at he hm hp ⊢
  subst he
  rcases hm with hm | rfl
  · rw [if_neg hm, List.filter_eq_self.2 fun p hq => by simpa using hp p hq]
    rfl
  · rw [List.filter_nil, ite_self]
    rfl

/-- **C156, violated.** An instance of a geometry without materials gets the materials that its polygons are named after, and its effect parameters are lost; with materials, a parameter that is
written as `newparam`, as parameters are by default, is lost. -/
theorem geometry_violated (ov : Ov) :
    (writeGeom ov [] (text "instance_geometry") { base := { id := text "box" }, params := [.elem (text "param") [] [] []] }).bind
        (loadGeom ov { meshes := [(text "box", [(text "red", 0)])], materials := [text "red"] }) =
      some { base := { id := text "box" }, mats := [{ base := { id := text "red" }, symbol := text "red" }] } ∧
    (writeGeom ov [] (text "instance_geometry") { base := { id := text "box" }, params := [.elem (text "newparam") [] [] []], mats := [{ base := { id := text "red" }, symbol := text "s" }] }).bind
        (loadGeom ov {}) =
      some { base := { id := text "box" }, mats := [{ base := { id := text "red" }, symbol := text "s" }] } := by
  have gb : ∀ t : Text, FXml.ValidId true t → GoodBase { id := t } := fun t h => ⟨h, plain_nil, trivial, Or.inl rfl⟩
  have hv : FXml.ValidId true (text "box") ∧ FXml.ValidId true (text "red") := ⟨⟨by decide +kernel, by decide +kernel, by decide +kernel⟩, by decide +kernel, by decide +kernel, by decide +kernel⟩
  refine ⟨?_, ?_⟩
  · rw [geometry_kept ov [] _ _ _ ⟨gb _ hv.1, fun p hp => Or.inl (by rw [List.mem_singleton.1 hp]; rfl), by simp⟩ (by decide +kernel), if_pos rfl]
    rfl
  · rw [geometry_kept ov [] _ _ _ ⟨gb _ hv.1, fun p hp => Or.inr (Or.inl (by rw [List.mem_singleton.1 hp]; rfl)), fun m hm => ?_⟩ (by decide +kernel), if_neg (by simp)]
    · rfl
    · rw [List.mem_singleton.1 hm]
      exact ⟨gb _ hv.2, hplain _ (by decide), by simp, by simp⟩

/-- An instance of a material with a sub-id, a name, bindings and an extra tree. -/
def sampleMat : MatInst :=
  { base := { id := text "red.1", sid := text "s", name := text "n", extra := [⟨[], [⟨text "P", .mk [] [] [] [.mk (text "k") [] [] []]⟩]⟩] }, symbol := text "sym", binds := [(text "a", text "b/c")],
    inputs := [(text "UV0", .texcoord, 1), (text "UV1", .color, -1)] }

theorem sampleMat_good : GoodMat sampleMat := by
  refine ⟨⟨⟨by decide +kernel, by decide +kernel, by decide +kernel⟩, hplain _ (by decide), ⟨by decide +kernel, by decide +kernel, by decide +kernel⟩, Or.inr ⟨⟨⟨_, rfl, rfl⟩, by decide +kernel, ?_⟩, by decide +kernel⟩⟩, hplain _ (by decide), ?_, ?_⟩
  · intro t ht
    rw [List.mem_singleton.1 ht]
    refine ⟨plain_nil, by decide +kernel, fun x hx => ?_⟩
    rw [List.mem_singleton.1 hx]
    refine ⟨hplain _ (by decide), rfl, fun c hc => ?_⟩
    rw [List.mem_singleton.1 hc]
    refine (FExtra.within_iff SaveHere _).2 ⟨⟨⟨⟨107, rfl, Or.inl ((FExtra.letter_iff 107).2 (by decide))⟩, fun d hd => ?_⟩, plain_nil, fun h => h.1 rfl, by simp [FExtra.Node.attrs], by simp [FExtra.Node.attrs]⟩,
      fun c hc => by simp [FExtra.Node.children] at hc⟩
    rw [List.mem_singleton.1 hd]
    exact Or.inl ((FExtra.letter_iff _).2 (by decide))
  · intro x hx
    rw [List.mem_singleton.1 hx]
    exact ⟨hplain _ (by decide), hplain _ (by decide)⟩
  · intro x hx
    simp only [sampleMat, List.mem_cons, List.not_mem_nil, or_false] at hx
    rcases hx with rfl | rfl <;> exact ⟨hplain _ (by decide), by decide, by decide⟩

example (ov : Ov) : (writeMat ov [] sampleMat).bind (loadMat ov) = some sampleMat := material_roundtrip ov [] _ sampleMat_good

example (ov : Ov) : (writeInst ov [] (text "instance_camera") sampleMat.base).bind (loadInst ov) = some { sampleMat.base with extra := FExtra.newExtra } :=
  instance_violated ov [] _ _ sampleMat_good.base

example (ov : Ov) : (writeInst ov [] (text "instance_camera") { sampleMat.base with extra := FExtra.newExtra }).bind (loadInst ov) = some { sampleMat.base with extra := FExtra.newExtra } :=
  instance_roundtrip_partial ov [] _ _ ⟨sampleMat_good.base.id, sampleMat_good.base.sid, sampleMat_good.base.name, Or.inl rfl⟩ rfl

/-- An instance of a geometry with an effect parameter and a material. -/
def sampleGeom : GeomInst := { base := sampleMat.base, params := [.elem (text "param") [(text "name", text "p")] [] []], mats := [sampleMat] }

theorem sampleGeom_good : GoodGeom sampleGeom :=
  ⟨sampleMat_good.base, fun p hp => Or.inl (by rw [List.mem_singleton.1 hp]; rfl), fun m hm => by rw [List.mem_singleton.1 hm]; exact sampleMat_good⟩

example (ov : Ov) : (writeGeom ov [] (text "instance_geometry") sampleGeom).bind (loadGeom ov {}) = some sampleGeom :=
  geometry_roundtrip_partial ov [] _ {} _ sampleGeom_good (by simp) (by simp [sampleGeom]) fun p hp => by rw [List.mem_singleton.1 hp]; rfl

/-- The child node of the extra tree of an instance of a controller is there twice. -/
example (ov : Ov) : ∃ u, FUri.parse ov (35 :: text "root") = some u ∧ (writeCtrl ov [] ⟨sampleGeom, [u]⟩).bind (loadCtrl ov {}) =
    some ⟨{ sampleGeom with base := { sampleMat.base with extra := [⟨[], [⟨text "P", .mk [] [] [] [.mk (text "k") [] [] [], .mk (text "k") [] [] []]⟩]⟩] } }, [u]⟩ := by
  have hv : FXml.ValidId true (text "root") := ⟨by decide +kernel, by decide +kernel, by decide +kernel⟩
  obtain ⟨-, u, h, -⟩ := ref_back ov [] hv
  refine ⟨u, h, ?_⟩
  rw [controller_violated ov [] {} ⟨sampleGeom, [u]⟩ sampleGeom_good fun v hw => ⟨_, hv, by rw [List.mem_singleton.1 hw, h]⟩, if_neg (by simp [sampleGeom])]
  rfl

example (ov : Ov) : ∃ u, FUri.parse ov (35 :: text "root") = some u ∧ (writeCtrl ov [] ⟨{ sampleGeom with base := { id := text "skin" } }, [u]⟩).bind (loadCtrl ov {}) =
    some ⟨{ sampleGeom with base := { id := text "skin" } }, [u]⟩ := by
  have hv : FXml.ValidId true (text "root") := ⟨by decide +kernel, by decide +kernel, by decide +kernel⟩
  obtain ⟨-, u, h, -⟩ := ref_back ov [] hv
  exact ⟨u, h, controller_roundtrip_partial ov [] {} _ ⟨⟨⟨by decide +kernel, by decide +kernel, by decide +kernel⟩, plain_nil, trivial, Or.inl rfl⟩, sampleGeom_good.params, sampleGeom_good.mats⟩
    (fun v hw => ⟨_, hv, by rw [List.mem_singleton.1 hw, h]⟩) rfl (Or.inl (by simp [sampleGeom])) fun p hp => by rw [List.mem_singleton.1 hp]; rfl⟩

end Verif.FArc
