import Verif.ArcDocParts
import Verif.ArcMeshParts

/-!
# The libraries of a document are saved and loaded (C155)
-/

namespace Verif.FArc

open Verif.FEff (Text text)
open Verif.FConv (Ov)

/-- **C155.** Whatever order the libraries have in a file, entities are loaded in the order of their kinds: animations, clips, images, effects, materials, geometries, controllers, cameras, lights, force fields,
emitters, scenes, physics materials, models and scenes; those of one kind in the order of the file. -/
theorem libraries_ordered (ov : Ov) (n : Node) (r : DocLoaded) (h : importDoc ov n = some r) :
    (r.ents.Pairwise fun a b => a.1.rank ≤ b.1.rank) ∧
    ∀ k, r.of k = (libElems n k).flatMap members ∧ r.assetsOf k = (libElems n k).flatMap fun l => l.children (text "asset") := by
  unfold importDoc at h
  obtain ⟨g1, g2, -, g4, -⟩ := gathered n.kids {} List.Pairwise.nil
  obtain ⟨o, ho, h⟩ := Option.bind_eq_some_iff.1 h
  obtain ⟨r1, h1, h⟩ := Option.bind_eq_some_iff.1 h
  obtain ⟨x1, x2⟩ := gatheredExtras _ _ _ _ g1 ho
  rw [loadOne_flat] at h1
  obtain ⟨p1, p2, -⟩ := loadParts _ _ _ h1
  obtain ⟨s1, s2, -⟩ := loadScene_keeps ov _ _ _ h
  have hk : ∀ k, k ≠ .unknown → ofKind k o.1 = libElems n k := by
    intro k hk
    rw [x2, g2]
    by_cases he : k = .emitter
    · subst he
      rw [no_emitters, if_pos rfl, g4]
      rfl
    · rw [if_neg he, List.append_nil, libElems_eq n k hk he]
      rfl
  refine ⟨?_, fun k => ?_⟩
  · rw [s1, p1]
    exact (flat_ordered x1).filter _
  · have e1 : r.of k = ofKind k ((flat o.1).filter fun x => isEnt x.2) := by
      unfold DocLoaded.of ofKind
      rw [s1, p1]
      rfl
    have e2 : r.assetsOf k = ofKind k ((flat o.1).filter fun x => decide (x.2.name = text "asset")) := by
      unfold DocLoaded.assetsOf ofKind
      rw [s2, p2]
      rfl
    rw [e1, e2]
    by_cases hu : k = .unknown
    · subst hu
      rw [flat_unknown, flat_unknown]
      exact ⟨rfl, rfl⟩
    · rw [flat_filter isEnt k hu, flat_filter (fun x => decide (x.name = text "asset")) k hu, hk k hu]
      exact ⟨rfl, rfl⟩

/-- **C155.** An entity is loaded after the entities that it can refer to: when two entities are loaded, the kind of the second does not come before that of the first in this list. -/
theorem libraries_in_order (ov : Ov) (n : Node) (r : DocLoaded) (h : importDoc ov n = some r) (i j : Nat) (hi : i < kindsInOrder.length) (hj : j < kindsInOrder.length) (a b : Nat) (x y : Node)
    (ha : r.ents[a]? = some (kindsInOrder[i], x)) (hb : r.ents[b]? = some (kindsInOrder[j], y)) (hab : a < b) : i ≤ j := by
  have hp := (libraries_ordered ov n r h).1
  obtain ⟨la, ea⟩ := List.getElem?_eq_some_iff.1 ha
  obtain ⟨lb, eb⟩ := List.getElem?_eq_some_iff.1 hb
  have hr := List.pairwise_iff_getElem.1 hp a b la lb hab
  rw [ea, eb] at hr
  have ht : ∀ i : Fin 15, kindsInOrder[i].rank = i.val := by decide +kernel
  have e1 := ht ⟨i, hi⟩
  have e2 := ht ⟨j, hj⟩
  simp only [Fin.getElem_fin] at e1 e2
  rw [e1, e2] at hr
  exact hr

example : ((importDoc .wrap (.elem (text "COLLADA") [(text "version", text "1.4.1")] [] [.elem (text "library_effects") [] [] [leaf (text "effect")], .elem (text "library_images") [] [] [leaf (text "image")]])).map fun r => r.ents.map (·.1)) =
    some [kindsInOrder[2], kindsInOrder[3]] := by set_option maxRecDepth 20000 in rfl

/-- **C155, partial.** A saved document is loaded with the same entities in each library, in the same order, with its asset, extra tree and instances of scenes; libraries that are written keep their asset and
extra tree, and the others are loaded as new ones. Missing: assets and some extra trees of libraries without entities, and extra trees that are taken for libraries; see `document_violated`. -/
theorem document_roundtrip_partial (ov : Ov) (stack : List FUri.Uri) (d : DocParts) (h : GoodDoc ov d) :
    ∃ n r, exportDoc ov stack d = some n ∧ n.name = text "COLLADA" ∧ importDoc ov n = some r ∧ r.assets = [d.asset] ∧ (∀ k, r.of k = (d.libs k).ents) ∧
      (∀ k, d.kept k → r.assetsOf k = (d.libs k).asset.toList ∧ r.libExtra k = (d.libs k).extra) ∧ r.physics = d.physics ∧ r.scene = d.scene ∧ r.extra = d.extra ∧
      ∀ k, ¬ d.kept k → r.assetsOf k = [] ∧ r.libExtra k = FExtra.newExtra := by
  obtain ⟨ps, c1, c2⟩ := cleanUris_good ov stack d.physics fun u hu => h.links u (List.mem_append_left _ hu)
  obtain ⟨ss, c3, c4⟩ := cleanUris_good ov stack d.scene.toList fun u hu => h.links u (List.mem_append_right _ hu)
  have hxe : ∀ n ∈ writeExtra d.extra, n.name = text "extra" := fun n hn => (writeExtra_elem hn).1
  have hpl : ∀ t ∈ d.extra, Plain t.name := by
    rcases h.extra with e | ⟨⟨-, -, e⟩, -⟩
    · rw [e]
      intro t ht
      simp only [FExtra.newExtra, List.mem_singleton] at ht
      subst ht
      exact plain_nil
    · exact fun t ht => (e t ht).1
  have hxt := fun n hn => extra_type (n := n) hpl h.noLibraries hn
  set ks := d.asset :: exportAnimations d ++ exported.flatMap (exportLib d) ++ sceneElem ps ss ++ exportEmitters d ++ writeExtra d.extra with hks
  have hex : exportDoc ov stack d = some (.elem (text "COLLADA") [(text "xmlns", text "http://www.collada.org/2005/11/COLLADASchema"), (text "version", text "1.4.1")] [] ks) := by
    unfold exportDoc
    rw [c1, Option.bind_some, c3, Option.map_some]
  -- the elements by name
  have nAnim : ∀ n ∈ exportAnimations d, n.name = text "library_animations" := by
    intro n hn
    unfold exportAnimations at hn
    split at hn
    · rw [List.mem_singleton] at hn; subst hn; rfl
    · cases hn
  have nScene : ∀ n ∈ sceneElem ps ss, n.name = text "scene" := by
    intro n hn
    unfold sceneElem at hn
    split at hn
    · cases hn
    · rw [List.mem_singleton] at hn; subst hn; rfl
  have nEmit : ∀ n ∈ exportEmitters d, n.name = text "extra" := by
    intro n hn
    unfold exportEmitters at hn
    split at hn
    · rw [List.mem_singleton] at hn; subst hn; rfl
    · cases hn
  have hall : ∀ {l : List Node} {a : Text}, (∀ n ∈ l, n.name = a) → ∀ b, l.filter (fun n => decide (n.name = b)) = if a = b then l else [] := by
    intro l a hl b
    split
    · rename_i hab
      exact List.filter_eq_self.2 fun n hn => by simp [hl n hn, hab]
    · rename_i hab
      exact List.filter_eq_nil_iff.2 fun n hn => by simp [hl n hn, hab]
  have fAsset : ks.filter (fun n => decide (n.name = text "asset")) = [d.asset] := by
    rw [hks]
    simp only [List.cons_append]
    rw [List.filter_cons_of_pos (by simp [h.asset])]
    simp only [List.filter_append]
    rw [hall nAnim, hall nScene, hall nEmit, hall hxe, exports_name d _ (by decide)]
    simp [text_inj]
  have fScene : ks.filter (fun n => decide (n.name = text "scene")) = sceneElem ps ss := by
    rw [hks]
    simp only [List.cons_append]
    rw [List.filter_cons_of_neg (by simp [h.asset, text_inj])]
    simp only [List.filter_append]
    rw [hall nAnim, hall nScene, hall nEmit, hall hxe, exports_name d _ (by decide)]
    simp [text_inj]
  have fExtra : ks.filter (fun n => decide (n.name = text "extra")) = exportEmitters d ++ writeExtra d.extra := by
    rw [hks]
    simp only [List.cons_append]
    rw [List.filter_cons_of_neg (by simp [h.asset, text_inj])]
    simp only [List.filter_append]
    rw [hall nAnim, hall nScene, hall nEmit, hall hxe, exports_name d _ (by decide)]
    simp [text_inj]
  have fKind : ∀ k, k ≠ .unknown → k ≠ .emitter → ks.filter (fun n => decide (entry n = some k)) = written d k := by
    intro k hk he
    have hent : ∀ {l : List Node} {a : Text}, (∀ n ∈ l, n.name = a) → l.filter (fun n => decide (entry n = some k)) = if libKind a = some k then l else [] := by
      intro l a hl
      split
      · rename_i hab
        exact List.filter_eq_self.2 fun n hn => by rw [decide_eq_true_eq, entry_eq n k hk, hl n hn, hab]
      · rename_i hab
        exact List.filter_eq_nil_iff.2 fun n hn => by rw [decide_eq_true_eq, entry_eq n k hk, hl n hn]; exact hab
    rw [hks]
    simp only [List.cons_append]
    rw [List.filter_cons_of_neg (by rw [decide_eq_true_eq, entry_eq _ k hk, h.asset, libKind_asset]; simp)]
    simp only [List.filter_append]
    rw [hent nAnim, hent nScene, hent nEmit, hent hxe, exports_filter d k hk exported (by decide), libKind_scene, libKind_extra, show libKind (text "library_animations") = some .animation from by decide]
    unfold written
    rw [if_neg he]
    by_cases ha : k = .animation
    · subst ha
      simp only [if_true, reduceCtorEq, if_false, List.append_nil]
      rw [show (exported.filter fun x => decide (x.1 = Kind.animation)) = [] from by decide]
      simp
    · simp [ha, Ne.symm ha]
  -- gathering
  obtain ⟨g1, g2, g3, g4, g5⟩ := gathered ks {} List.Pairwise.nil
  rw [fAsset] at g3
  rw [fScene] at g5
  rw [fExtra] at g4
  simp only [List.nil_append, Option.or_none] at g3 g4 g5
  obtain ⟨o1, ho⟩ : ∃ o1, (exportEmitters d ++ writeExtra d.extra).foldlM gatherExtra ((ks.foldl gather {}).order, FExtra.newExtra) = some (o1, d.extra) := by
    rw [List.foldlM_append]
    have hemit : ∃ o1, (exportEmitters d).foldlM gatherExtra ((ks.foldl gather {}).order, FExtra.newExtra) = some (o1, FExtra.newExtra) := by
      unfold exportEmitters
      split
      · rw [List.foldlM_cons]
        unfold gatherExtra
        have : prop (some (Node.elem (text "extra") [(text "type", text "libraries")] []
            [.elem (text "technique") [(text "profile", text "FCOLLADA")] [] [.elem (text "library_emitters") [] [] (writeLib (d.libs .emitter))]])) (text "type") = some (text "libraries") := by
          unfold prop
          simp only [Option.bind_some, raw_cons, if_true]
          exact decode_plain (hplain _ (by decide))
        rw [this, Option.bind_some, if_pos rfl]
        exact ⟨_, rfl⟩
      · exact ⟨_, rfl⟩
    obtain ⟨o1, ho1⟩ := hemit
    refine ⟨o1, ?_⟩
    rw [ho1]
    simp only [Option.bind_eq_bind, Option.bind_some]
    rw [gatherExtra_user _ _ _ hxt, extra_back h.extra, Option.map_some]
  obtain ⟨x1, x2⟩ := gatheredExtras _ _ _ _ g1 ho
  have hEmit : emittersIn (exportEmitters d ++ writeExtra d.extra) = written d .emitter := by
    unfold emittersIn
    have hnil : (writeExtra d.extra).filter (fun n => decide (prop (some n) (text "type") = some (text "libraries"))) = [] := List.filter_eq_nil_iff.2 fun n hn => by
      obtain ⟨t, e1, e2⟩ := hxt n hn
      rw [e1]
      simpa using e2
    rw [List.filter_append, hnil, List.append_nil]
    unfold exportEmitters written emitterElem
    by_cases he : (d.libs .emitter).ents = []
    · simp [he]
    · have : prop (some (Node.elem (text "extra") [(text "type", text "libraries")] []
          [.elem (text "technique") [(text "profile", text "FCOLLADA")] [] [.elem (text "library_emitters") [] [] (writeLib (d.libs .emitter))]])) (text "type") = some (text "libraries") := by
        unfold prop
        simp only [Option.bind_some, raw_cons, if_true]
        exact decode_plain (hplain _ (by decide))
      simp [he, this, emitterLibs, Node.children, Node.kids, Node.name]
  have hk : ∀ k, k ≠ .unknown → ofKind k o1 = written d k := by
    intro k hk
    have := x2 k
    rw [g2] at this
    rw [this]
    by_cases he : k = .emitter
    · subst he
      rw [no_emitters, if_pos rfl, hEmit]
      rfl
    · rw [if_neg he, List.append_nil, fKind k hk he]
      rfl
  -- the extra trees of libraries
  classical
  obtain ⟨r1, hr1, hr2⟩ := loadParts_some (flat o1) { assets := [d.asset], extra := d.extra } (fun k => if d.kept k ∧ k ≠ .unknown then (d.libs k).extra else FExtra.newExtra) (by
    intro k
    have hno : extrasIn (flat o1) k = [] → loadExtras FExtra.newExtra (extrasIn (flat o1) k) = some FExtra.newExtra := fun e => by rw [e]; rfl
    show loadExtras FExtra.newExtra _ = _
    by_cases hu : k = .unknown
    · subst hu
      rw [if_neg (by simp), hno (flat_unknown _ _)]
    · have hx : extrasIn (flat o1) k = (written d k).flatMap fun n => n.kids.filter fun x => decide (x.name = text "extra") := by
        unfold extrasIn
        rw [flat_filter (fun x => decide (x.name = text "extra")) k hu, hk k hu]
      by_cases hkept : d.kept k
      · rw [if_pos ⟨hkept, hu⟩, hx]
        obtain ⟨nm, hw⟩ := written_kept hkept hu
        rw [hw, List.flatMap_cons, List.flatMap_nil, List.append_nil, (libNodes h k nm [] []).2.2]
        exact extra_back (h.libExtra k)
      · rw [if_neg (fun e => hkept e.1), hno (by rw [hx, written_lost hkept]; rfl)])
  obtain ⟨p1, p2, p3, p4, p5, p6⟩ := loadParts _ _ _ hr1
  -- the scene
  have hscene : ∃ r, loadSceneElem ov r1 (sceneElem ps ss).getLast? = some r ∧ r.physics = d.physics ∧ r.scene = d.scene := by
    unfold sceneElem
    by_cases hps : ps = [] ∧ ss = []
    · rw [if_pos hps]
      obtain ⟨rfl, rfl⟩ := hps
      have e1 : d.physics = [] := by simpa using c2
      have e2 : d.scene = none := by simpa using c4
      exact ⟨r1, rfl, by rw [p5, e1], by rw [p6, e2]⟩
    · rw [if_neg hps]
      simp only [List.getLast?_singleton, loadSceneElem, Node.kids, List.foldlM_append]
      rw [loadPhysics ov d.physics ps c2]
      simp only [Option.bind_eq_bind, Option.bind_some]
      cases hsc : d.scene with
      | none =>
        rw [hsc] at c4
        simp only [Option.toList_none, List.forall₂_nil_left_iff] at c4
        subst c4
        exact ⟨_, rfl, by rw [p5]; rfl, by rw [p6]⟩
      | some u =>
        rw [hsc] at c4
        simp only [Option.toList_some] at c4
        rcases c4 with _ | ⟨c5, c6⟩
        cases c6
        refine ⟨_, foldlM_one (loadInstances ov _ (Or.inl rfl) c5 _), ?_, ?_⟩
        · rw [if_pos rfl, p5]; rfl
        · rw [if_pos rfl]
  obtain ⟨r, hr, hph, hsc⟩ := hscene
  obtain ⟨s1, s2, s3, s4, s5⟩ := loadScene_keeps ov _ _ _ hr
  have himp : importDoc ov (.elem (text "COLLADA") [(text "xmlns", text "http://www.collada.org/2005/11/COLLADASchema"), (text "version", text "1.4.1")] [] ks) = some r := by
    unfold importDoc
    simp only [Node.kids]
    rw [g4, ho, Option.bind_some, loadOne_flat, g3, hr1, Option.bind_some, g5, hr]
  have hof : ∀ k, r.of k = ofKind k ((flat o1).filter fun x => isEnt x.2) := by
    intro k
    unfold DocLoaded.of ofKind
    rw [s1, p1]
    rfl
  have has : ∀ k, r.assetsOf k = ofKind k ((flat o1).filter fun x => decide (x.2.name = text "asset")) := by
    intro k
    unfold DocLoaded.assetsOf ofKind
    rw [s2, p2]
    rfl
  refine ⟨_, r, hex, rfl, himp, by rw [s4, p3], fun k => ?_, fun k hkept => ?_, hph, hsc, by rw [s5, p4], fun k hkept => ?_⟩
  · rw [hof]
    by_cases hu : k = .unknown
    · subst hu
      rw [flat_unknown, h.unused]
    · rw [flat_filter isEnt k hu, hk k hu]
      by_cases hkept : d.kept k
      · obtain ⟨nm, hw⟩ := written_kept hkept hu
        rw [hw, List.flatMap_cons, List.flatMap_nil, List.append_nil, (libNodes h k nm [] []).1]
      · rw [written_lost hkept]
        unfold DocParts.kept at hkept
        push Not at hkept
        exact hkept.1.symm
  · have hu : k ≠ .unknown := by
      rintro rfl
      rcases hkept with hkept | hkept
      · exact hkept h.unused
      · exact hkept.2.2.1 rfl
    obtain ⟨nm, hw⟩ := written_kept hkept hu
    rw [has, flat_filter (fun x => decide (x.name = text "asset")) k hu, hk k hu, hw, List.flatMap_cons, List.flatMap_nil, List.append_nil, (libNodes h k nm [] []).2.1, s3, hr2]
    exact ⟨rfl, if_pos ⟨hkept, hu⟩⟩
  · rw [has, s3, hr2]
    refine ⟨?_, if_neg fun e => hkept e.1⟩
    by_cases hu : k = .unknown
    · subst hu
      rw [flat_unknown]
    · rw [flat_filter (fun x => decide (x.name = text "asset")) k hu, hk k hu, written_lost hkept]
      rfl

/-- A document with two libraries with entities, one of them with an asset, and instances. -/
def sampleDoc (u v : FUri.Uri) : DocParts :=
  { asset := .elem (text "asset") [] [] []
    libs := fun k => match k with
      | .geometry => { asset := some (.elem (text "asset") [] [] []), ents := [.elem (text "geometry") [(text "id", text "a")] [] [], .elem (text "geometry") [(text "id", text "b")] [] []] }
      | .emitter => { ents := [.elem (text "emitter") [(text "id", text "e")] [] []] }
      | _ => {}
    physics := [u], scene := some v }

/-- The hypotheses of `document_roundtrip_partial` are met. -/
example : ∃ u v, GoodDoc .wrap (sampleDoc u v) ∧ (sampleDoc u v).kept .geometry ∧ (sampleDoc u v).kept .emitter := by
  obtain ⟨u, hu, -⟩ := parse_local .wrap (t := text "physics") (by decide) (by decide)
  obtain ⟨v, hv, -⟩ := parse_local .wrap (t := text "scene") (by decide) (by decide)
  refine ⟨u, v, ⟨rfl, ?_, ?_, ?_, Or.inl rfl, ?_, ?_, rfl⟩, Or.inl (by simp [sampleDoc]), Or.inl (by simp [sampleDoc])⟩
  · intro k a h
    cases k <;> simp [sampleDoc] at h
    subst h
    rfl
  · intro k n h
    cases k <;> simp [sampleDoc] at h
    · rcases h with rfl | rfl <;> simp [Node.name, text_inj]
    · subst h; simp [Node.name, text_inj]
  · intro k
    cases k <;> exact Or.inl rfl
  · intro t ht
    simp only [sampleDoc, FExtra.newExtra, List.mem_singleton] at ht
    subst ht
    decide
  · intro w hw
    simp only [sampleDoc, Option.toList_some, List.cons_append, List.nil_append, List.mem_cons, List.not_mem_nil, or_false] at hw
    rcases hw with rfl | rfl
    · exact ⟨_, hu, by decide, hplain _ (by decide), by decide, by decide⟩
    · exact ⟨_, hv, by decide, hplain _ (by decide), by decide, by decide⟩

/-- Two libraries, of which the one that is loaded first comes last. -/
example : (importDoc .wrap (.elem (text "COLLADA") [] []
    [.elem (text "library_geometries") [] [] [.elem (text "geometry") [] [] []], .elem (text "library_images") [] [] [.elem (text "image") [] [] []]])).map (·.ents) =
      some [(.image, .elem (text "image") [] [] []), (.geometry, .elem (text "geometry") [] [] [])] := by
  set_option maxRecDepth 20000 in rfl

/-- An extra tree with one node. -/
def smallExtra (type : Text) : FExtra.Extra := [⟨[], []⟩, ⟨type, [⟨text "P", .mk [] [] [] [.mk (text "n") [] [] []]⟩]⟩]

/-- What is loaded from the file of a document. -/
def through (d : DocParts) : Option DocLoaded := (exportDoc .wrap [] d).bind (importDoc .wrap)

/-- **C155, violated.** Lost on the way: the extra tree of a library of animations without animations, although that of any other kind is kept; the asset of a library without entities; an extra of the document
with the type `libraries`. -/
theorem document_violated :
    (through { asset := .elem (text "asset") [] [] [], libs := fun k => if k = .animation ∨ k = .image then { extra := smallExtra (text "game") } else {} }).map
      (fun r => (r.libExtra .animation, r.libExtra .image)) = some (FExtra.newExtra, smallExtra (text "game")) ∧
    (through { asset := .elem (text "asset") [] [] [], libs := fun k => if k = .image then { asset := some (.elem (text "asset") [] [] []) } else {} }).map (fun r => r.assetsOf .image) = some [] ∧
    (through { asset := .elem (text "asset") [] [] [], libs := fun _ => {}, extra := smallExtra (text "libraries") }).map (·.extra) = some FExtra.newExtra := by
  refine ⟨?_, ?_, ?_⟩
  · set_option maxRecDepth 40000 in rfl
  · set_option maxRecDepth 40000 in rfl
  · set_option maxRecDepth 40000 in rfl

/-- **C155, violated.** Of several instances of visual scenes the last one is kept, although the code means to keep the first one. -/
theorem lastScene_violated (ov : Ov) (r : DocLoaded) (a b : Text) (ha : Plain a) (hb : Plain b) (u v : FUri.Uri) (hu : FUri.parse ov a = some u) (hv : FUri.parse ov b = some v) (hf : v.fragment ≠ []) :
    (loadSceneElem ov r (some (.elem (text "scene") [] []
      [.elem (text "instance_visual_scene") [(text "url", a)] [] [], .elem (text "instance_visual_scene") [(text "url", b)] [] []]))).map (·.scene) = some (some v) := by
  have hp : ∀ t, Plain t → prop (some (Node.elem (text "instance_visual_scene") [(text "url", t)] [] [])) (text "url") = some t := by
    intro t ht
    unfold prop
    simp only [Option.bind_some, raw_cons, if_true]
    exact decode_plain ht
  unfold loadSceneElem
  simp only [Node.kids, List.foldlM_cons, List.foldlM_nil, loadInstance, Node.name, true_or, if_true, hp a ha, hp b hb, Option.bind_some, hu, hv, Option.map_some, Option.bind_eq_bind, if_neg hf,
    Option.pure_def]

end Verif.FArc
