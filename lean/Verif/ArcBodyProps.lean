import Verif.ArcBodyLemmas
import Verif.ArcTreeProps

/-!
# C176: rigid body parameters and physics scenes are the same after saving and loading

Wanted: the parameters of a rigid body are loaded as they were saved. That is not so for its density and for an inertia that is not said to be accurate.
-/

namespace Verif.FArc

open Verif.FEff (Text text)
open Verif.FConv (Ov DateTime Formats shown)

/-- **C176, partial.** The parameters of a rigid body that are saved in an element of any name are loaded from it: whether it is dynamic, its mass, the frame of its mass, its own material, and its shapes in their order. The
loaded parameters have the density 0, and an inertia that is not accurate is replaced by that of a ball. Default parameters are not looked at. Missing: the density (`body_density_violated`), such an inertia, and a flag that is
neither 0 nor 1. -/
theorem body_roundtrip_partial (ov : Ov) (len : V3 → ℚ) (vol : Solid → ℚ) (ball : ℚ → ℚ → ℚ) {fmt rnd} (hf : Formats fmt rnd) (h1 : fmt 1 = text "1") (now now' : DateTime) (hn : GoodDate now) (p : BodyParms)
    (hd : IsFlag p.dynamic) (hm : ∀ m, p.material = some m → GoodPMat ov rnd m) (hs : ∀ s ∈ p.shapes, GoodShape s) (nm : Text) (d : Option BodyParms) (hdi : d = none ∨ p.inertiaAccurate = true) :
    ∃ ks p', writeBodyParms ov fmt now p = some (ks, p') ∧ { p' with material := p.material } = p ∧
      loadBodyParms ov len vol ball now' d {} (.elem nm [] [] ks) = some ({ p with
        mass := shown rnd p.mass, density := 0, densityAccurate := false, inertia := inertiaAfter rnd vol ball p, translate := shownVec rnd p.translate, axis := shownVec rnd p.axis, angle := shown rnd p.angle,
        material := p.material.map (pmatAfter ov rnd now), shapes := p.shapes.map (shapeAfter rnd len vol) }, true) := by
  obtain ⟨ks, s1, s2, s3, s4⟩ := shapes_back ov len vol now now' hf p.shapes hs
  have hz1 : (ks.zip p.shapes).map Prod.fst = ks := List.map_fst_zip (by omega)
  have hz2 : (ks.zip p.shapes).map Prod.snd = p.shapes := List.map_snd_zip (by omega)
  have hmat : ∃ ms m', ownKid ov fmt now p.material = some (ms, m') ∧ (∀ k ∈ ms, k.name = text "physics_material") ∧
      (match ms.head? with | some k => (loadPMat ov now' {} k).map some | none => some none) = some (p.material.map (pmatAfter ov rnd now)) := by
    cases hpm : p.material with
    | none => exact ⟨[], none, rfl, by simp, rfl⟩
    | some m =>
      obtain ⟨k, m', w, wn, wl⟩ := pmat_back ov hf now now' hn m (hm m hpm)
      refine ⟨[k], some m', by simp [ownKid, w], by simp [wn], ?_⟩
      simp [wl]
  obtain ⟨ms, m', o1, o2, o3⟩ := hmat
  have hw : writeBodyParms ov fmt now p = some (headKids fmt p ++ (inertiaKid fmt p ++ (ms ++ ks)), { p with material := m' }) := by
    unfold writeBodyParms
    rw [o1, Option.bind_some, s1, Option.map_some, hz1, hz2]
    simp [headKids]
  refine ⟨_, _, hw, rfl, ?_⟩
  have ik : ∀ k ∈ inertiaKid fmt p, k.name = text "inertia" := by
    intro k hk
    unfold inertiaKid at hk
    split at hk
    · rw [List.mem_singleton.1 hk, name_textChild]
    · simp at hk
  have none_of : ∀ (l : List Node) (a t : Text), (∀ k ∈ l, k.name = a) → a ≠ t → l.find? (fun k => decide (k.name = t)) = none ∧ l.filter (fun k => decide (k.name = t)) = [] := by
    intro l a t hl hat
    constructor
    · rw [List.find?_eq_none]; intro k hk; simpa [hl k hk] using hat
    · rw [List.filter_eq_nil_iff]; intro k hk; simpa [hl k hk] using hat
  have head_of : ∀ (l : List Node) (t : Text), (∀ k ∈ l, k.name = t) → l.find? (fun k => decide (k.name = t)) = l.head? ∧ l.filter (fun k => decide (k.name = t)) = l := by
    intro l t hl
    constructor
    · cases l with
      | nil => rfl
      | cons k l => rw [List.find?_cons_of_pos (by simp [hl k])]; rfl
    · rw [List.filter_eq_self]; intro k hk; simp [hl k hk]
  obtain ⟨c1, c2, c3⟩ := head_find (fmt := fmt) p (inertiaKid fmt p ++ (ms ++ ks)) nm [] []
  have c4 : (Node.elem nm [] [] (headKids fmt p ++ (inertiaKid fmt p ++ (ms ++ ks)))).children (text "shape") = ks := by
    rw [(head_skip p _ nm [] [] _ (by simp [text_inj]) (by simp [text_inj]) (by simp [text_inj])).2, List.filter_append, List.filter_append, (none_of _ _ _ ik (by simp [text_inj])).2, (none_of _ _ _ o2 (by simp [text_inj])).2,
      (head_of _ _ s3).2]
    rfl
  have c5 : (Node.elem nm [] [] (headKids fmt p ++ (inertiaKid fmt p ++ (ms ++ ks)))).child (text "physics_material") = ms.head? := by
    rw [(head_skip p _ nm [] [] _ (by simp [text_inj]) (by simp [text_inj]) (by simp [text_inj])).1, List.find?_append, List.find?_append, (none_of _ _ _ ik (by simp [text_inj])).1, (head_of _ _ o2).1,
      (none_of _ _ _ s3 (by simp [text_inj])).1]
    simp
  have c6 : (Node.elem nm [] [] (headKids fmt p ++ (inertiaKid fmt p ++ (ms ++ ks)))).child (text "inertia") = (inertiaKid fmt p).head? := by
    rw [(head_skip p _ nm [] [] _ (by simp [text_inj]) (by simp [text_inj]) (by simp [text_inj])).1, List.find?_append, List.find?_append, (none_of _ _ _ s3 (by simp [text_inj])).1, (none_of _ _ _ o2 (by simp [text_inj])).1,
      (head_of _ _ ik).1]
    simp
  obtain ⟨f1, f2⟩ := frame_read ov hf p ((d.map BodyParms.translate).getD (0, 0, 0))
  have r1 : bodyDynamic d {} (.elem nm [] [] (headKids fmt p ++ (inertiaKid fmt p ++ (ms ++ ks)))) = some p.dynamic := flagIn_text hf h1 hd c1 _
  have r2 : bodyTranslate ov d (.elem nm [] [] (headKids fmt p ++ (inertiaKid fmt p ++ (ms ++ ks)))) = some (shownVec rnd p.translate) := by
    unfold bodyTranslate; rw [c3]; exact f1
  have r3 : bodyRotate ov d (.elem nm [] [] (headKids fmt p ++ (inertiaKid fmt p ++ (ms ++ ks)))) = some (shownVec rnd p.axis, shown rnd p.angle) := by
    unfold bodyRotate
    rw [c3, Option.bind_some, f2]
    simp only [direct_value]
    rw [readV4_numsText ov hf (p.axis.1, p.axis.2.1, p.axis.2.2, p.angle)]
    rfl
  have r4 : bodyShapes ov len vol now' (.elem nm [] [] (headKids fmt p ++ (inertiaKid fmt p ++ (ms ++ ks)))) [] = some (p.shapes.map (shapeAfter rnd len vol), true) := by
    unfold bodyShapes; rw [c4, s4]; rfl
  have r5 : bodyMaterial ov now' {} (.elem nm [] [] (headKids fmt p ++ (inertiaKid fmt p ++ (ms ++ ks)))) = some (p.material.map (pmatAfter ov rnd now)) := by
    unfold bodyMaterial; rw [c5]; exact o3
  have r6 : bodyMass ov d (p.shapes.map (shapeAfter rnd len vol)) (.elem nm [] [] (headKids fmt p ++ (inertiaKid fmt p ++ (ms ++ ks)))) = some (shown rnd p.mass, 0, false) := by
    unfold bodyMass; rw [c2]; simp only [direct_num hf]; rw [readNum_numText ov hf]; rfl
  have r7 : bodyInertia ov vol ball d (p.shapes.map (shapeAfter rnd len vol)) (shown rnd p.mass) (.elem nm [] [] (headKids fmt p ++ (inertiaKid fmt p ++ (ms ++ ks)))) =
      some (inertiaAfter rnd vol ball p, p.inertiaAccurate) := by
    unfold bodyInertia
    rw [c6]
    unfold inertiaKid inertiaAfter
    by_cases ha : p.inertiaAccurate = true
    · simp only [ha, if_true, List.head?_cons, direct_vec hf]
      rw [readV3_vecText ov hf]; rfl
    · rcases hdi with rfl | hdi
      · simp only [ha, Bool.false_eq_true, if_false, List.head?_nil, List.map_map]
        rfl
      · exact absurd hdi ha
  unfold loadBodyParms
  rw [r1, Option.bind_some, r2, Option.bind_some, r3, Option.bind_some, r4, Option.bind_some, r5, Option.bind_some, r6, Option.bind_some, r7, Option.map_some]

/-- **C176, violated.** Whatever parameters are saved, the loaded density is 0 and the mass is said to be more accurate. -/
theorem body_density_violated (ov : Ov) (len : V3 → ℚ) (vol : Solid → ℚ) (ball : ℚ → ℚ → ℚ) (fmt : ℚ → Text) (now now' : DateTime) (p : BodyParms) (nm : Text) (d : Option BodyParms) (ks : List Node) (p' q : BodyParms) (ok : Bool)
    (hw : writeBodyParms ov fmt now p = some (ks, p')) (hl : loadBodyParms ov len vol ball now' d {} (.elem nm [] [] ks) = some (q, ok)) : q.density = 0 ∧ q.densityAccurate = false := by
  have c2 : ∃ k, (Node.elem nm [] [] ks).child (text "mass") = some k := by
    unfold writeBodyParms at hw
    obtain ⟨m, -, hw⟩ := Option.bind_eq_some_iff.1 hw
    obtain ⟨ss, -, e⟩ := Option.map_eq_some_iff.1 hw
    rw [← (Prod.mk.inj e).1]
    have := (head_find (fmt := fmt) p (inertiaKid fmt p ++ (m.1 ++ ss.map Prod.fst)) nm [] []).2.1
    exact ⟨_, by simpa [headKids] using this⟩
  obtain ⟨k, hk⟩ := c2
  unfold loadBodyParms at hl
  obtain ⟨a, -, hl⟩ := Option.bind_eq_some_iff.1 hl
  obtain ⟨b, -, hl⟩ := Option.bind_eq_some_iff.1 hl
  obtain ⟨c, -, hl⟩ := Option.bind_eq_some_iff.1 hl
  obtain ⟨e, -, hl⟩ := Option.bind_eq_some_iff.1 hl
  obtain ⟨f, -, hl⟩ := Option.bind_eq_some_iff.1 hl
  obtain ⟨g, hg, hl⟩ := Option.bind_eq_some_iff.1 hl
  obtain ⟨i, -, hl⟩ := Option.map_eq_some_iff.1 hl
  unfold bodyMass at hg
  rw [hk] at hg
  obtain ⟨x, -, rfl⟩ := Option.map_eq_some_iff.1 hg
  rw [← (Prod.mk.inj hl).1]
  exact ⟨rfl, rfl⟩

/-- **C176, violated.** Parameters without default parameters, in an element with neither a mass nor a shape, have a density that is not a number. -/
theorem body_empty_violated (ov : Ov) (len : V3 → ℚ) (vol : Solid → ℚ) (ball : ℚ → ℚ → ℚ) (now : DateTime) (n : Node) (h1 : n.child (text "mass") = none) (h2 : n.children (text "shape") = []) :
    loadBodyParms ov len vol ball now none {} n = none := by
  have e : bodyShapes ov len vol now n [] = some ([], true) := by unfold bodyShapes; rw [h2]; rfl
  unfold loadBodyParms
  rw [e]
  simp only [Option.bind_some, bodyMass, h1, if_true, Option.bind_none]
  simp

/-- **C176.** Without a mass and without default parameters the mass is the sum of the masses of the shapes and the density their mean; the density is more accurate if that of a shape is. All shapes are added in their order, and
loading is a success exactly if it is for every shape. -/
theorem body_from_shapes (ov : Ov) (len : V3 → ℚ) (vol : Solid → ℚ) (ball : ℚ → ℚ → ℚ) (now : DateTime) (n : Node) (h1 : n.child (text "mass") = none) (q : BodyParms) (ok : Bool)
    (hl : loadBodyParms ov len vol ball now none {} n = some (q, ok)) :
    ∃ rs, (n.children (text "shape")).mapM (loadPShape ov len vol now {}) = some rs ∧ q.shapes = rs.map Prod.fst ∧ (ok = true ↔ ∀ r ∈ rs, r.2 = true) ∧ rs ≠ [] ∧
      q.mass = (q.shapes.map fun s => s.mass.getD 0).sum ∧ q.density * q.shapes.length = (q.shapes.map fun s => s.density.getD 0).sum ∧ (q.densityAccurate = true ↔ ∃ s ∈ q.shapes, s.accurate = true) := by
  have fold : ∀ (ks : List Node) (acc : List PShape) (st : Bool) (r : List PShape × Bool),
      ks.foldlM (fun (s : List PShape × Bool) k => (loadPShape ov len vol now {} k).map fun r => (s.1 ++ [r.1], s.2 && r.2)) (acc, st) = some r →
      ∃ rs, ks.mapM (loadPShape ov len vol now {}) = some rs ∧ r.1 = acc ++ rs.map Prod.fst ∧ (r.2 = true ↔ st = true ∧ ∀ r ∈ rs, r.2 = true) := by
    intro ks
    induction ks with
    | nil => intro acc st r h; cases h; exact ⟨[], rfl, by simp, by simp⟩
    | cons k ks ih =>
      intro acc st r h
      rw [List.foldlM_cons] at h
      obtain ⟨y, hy, h⟩ := Option.bind_eq_some_iff.1 h
      obtain ⟨x, hx, rfl⟩ := Option.map_eq_some_iff.1 hy
      obtain ⟨rs, m1, m2, m3⟩ := ih _ _ _ h
      refine ⟨x :: rs, by rw [List.mapM_cons, hx, m1]; rfl, by rw [m2]; simp, ?_⟩
      rw [m3]
      simp [and_assoc]
  unfold loadBodyParms at hl
  obtain ⟨a, -, hl⟩ := Option.bind_eq_some_iff.1 hl
  obtain ⟨b, -, hl⟩ := Option.bind_eq_some_iff.1 hl
  obtain ⟨c, -, hl⟩ := Option.bind_eq_some_iff.1 hl
  obtain ⟨e, he, hl⟩ := Option.bind_eq_some_iff.1 hl
  obtain ⟨f, -, hl⟩ := Option.bind_eq_some_iff.1 hl
  obtain ⟨g, hg, hl⟩ := Option.bind_eq_some_iff.1 hl
  obtain ⟨i, -, hl⟩ := Option.map_eq_some_iff.1 hl
  obtain ⟨rs, m1, m2, m3⟩ := fold _ _ _ _ he
  obtain ⟨rfl, rfl⟩ := Prod.mk.inj hl
  unfold bodyMass at hg
  rw [h1] at hg
  simp only at hg
  split at hg
  · cases hg
  · rename_i hne
    cases hg
    have hlen : (e.1.length : ℚ) ≠ 0 := by simpa using hne
    refine ⟨rs, m1, by simpa using m2, by simpa using m3, ?_, rfl, div_mul_cancel₀ _ hlen, by simp⟩
    rintro rfl
    exact hne (by simpa using m2)

/-- **C176.** An element with no children takes everything from the default parameters but the shapes and the material, with the flag rounded to 0 or 1. -/
theorem body_default (ov : Ov) (len : V3 → ℚ) (vol : Solid → ℚ) (ball : ℚ → ℚ → ℚ) (now : DateTime) (d : BodyParms) (nm : Text) :
    loadBodyParms ov len vol ball now (some d) {} (.elem nm [] [] []) = some ({ d with dynamic := if 1 / 2 < d.dynamic then 1 else 0, material := none, shapes := [] }, true) := rfl

/-- **C176.** A physics scene is loaded as it was saved: its common part, its gravity and its time step. -/
theorem scene_values_roundtrip (ov : Ov) {fmt rnd} (hf : Formats fmt rnd) (now now' : DateTime) (hn : GoodDate now) (s : PScene) (ts : List FExtra.Tech) (es : List FExtra.EType)
    (hx : s.ent.extra = ⟨[], ts⟩ :: es) (h : GoodEnt ov rnd s.ent) (ht : s.ent.target = []) :
    ∃ k s', writePScene ov fmt now s = some (k, s') ∧
      s' = { s with ent := { s.ent with asset := s.ent.asset.map fun a => { a with modified := now }, extra := if s.ent.note = [] then ⟨[], ts⟩ :: es else ⟨[], withoutTech ts⟩ :: es } } ∧
      loadPScene ov now' {} k = some ⟨entAfter ov rnd now s.ent (extraAfter s.ent ts es), shownVec rnd s.gravity, shown rnd s.step⟩ := by
  obtain ⟨as, ns, h1, h2, h3, h4⟩ := ent_back ov hf now now' hn (text "physics_scene") s.ent ts es hx h ht
  refine ⟨_, _, by unfold writePScene; rw [h3, Option.map_some], rfl, ?_⟩
  have hname : (sceneValues fmt s).name = text "technique_common" := rfl
  have hl := h4 [sceneValues fmt s] [] (fun k hk => by rw [List.mem_singleton.1 hk, hname]; simp [text_inj]) (by simp)
  rw [List.append_nil] at hl
  have skip : ∀ (l : List Node) (a : Text), (∀ k ∈ l, k.name = a) → a ≠ text "technique_common" → ∀ x, l.foldlM (sceneStep ov) x = some x := by
    intro l a hl ha
    induction l with
    | nil => intro x; rfl
    | cons k l ih =>
      intro x
      rw [List.foldlM_cons, sceneStep, if_neg (by rw [hl k (by simp)]; exact ha)]
      exact ih (fun y hy => hl y (by simp [hy])) x
  have g : gravityIn ov (sceneValues fmt s) (0, -98 / 10, 0) = some (shownVec rnd s.gravity) := by
    unfold gravityIn
    rw [show (sceneValues fmt s).child (text "gravity") = some (textChild (text "gravity") (vecText fmt s.gravity)) by simp [Node.child, kids_elem, sceneValues, name_textChild]]
    simp only [direct_vec hf]
    exact readTriple_text ov hf _
  have t : floatIn ov (some (sceneValues fmt s)) (text "time_step") 1 = some (shown rnd s.step) := by
    rw [floatIn_some ov (k := valueChild (text "time_step") (numText fmt s.step)) (by simp [Node.child, kids_elem, sceneValues, name_textChild, name_value, text_inj]), direct_value, readNum_numText ov hf]
  unfold loadPScene
  rw [hl, Option.bind_some]
  simp only [elem_name, kids_elem, if_true, List.foldlM_append, List.foldlM_cons, List.foldlM_nil, skip as _ h1 (by simp [text_inj]), skip ns _ h2 (by simp [text_inj]), Option.bind_eq_bind, Option.bind_some, Option.pure_def, sceneStep, hname, g, t,
    Option.map_some]

/-- A body with a material, a box and an accurate inertia. -/
def sampleBody : BodyParms := {
  dynamic := 0, mass := 2, density := 2, densityAccurate := true, inertia := (2, 0, 2), inertiaAccurate := true, translate := (0, 2, 0), axis := (0, 0, 2), angle := 2,
  material := some { ent := { id := text "pm", note := text "steel" }, staticFriction := 2 }, shapes := [sampleShape] }

example : IsFlag sampleBody.dynamic ∧ (∀ m, sampleBody.material = some m → GoodPMat .wrap (fun _ => 3 / 2) m) ∧ ∀ s ∈ sampleBody.shapes, GoodShape s := by
  refine ⟨.inl rfl, ?_, ?_⟩
  · intro m hm
    cases hm
    exact ⟨⟨[], [], rfl⟩, newEnt_good _ _ _ _ (hplain _ (by decide +kernel)) (hplain _ (by decide +kernel)), rfl⟩
  intro s hs
  rw [List.mem_singleton.1 hs]
  refine ⟨fun x hx => by cases hx; exact id, ⟨⟨2, rfl, by decide⟩, fun _ => ⟨2, rfl, by decide⟩⟩, rfl, ?_⟩
  intro t ht
  simp only [sampleShape, List.mem_cons, List.not_mem_nil, or_false] at ht
  rcases ht with rfl | rfl
  · exact .inr ⟨_, _, rfl⟩
  · exact .inl ⟨_, rfl⟩

/-- The density of the sample is lost; the rest is kept. -/
example : ((writeBodyParms .wrap fmt02 sampleDate sampleBody).bind fun r => (loadBodyParms .wrap lenAxis (fun _ => 2) (fun _ _ => 0) sampleDate none {} (.elem (text "technique_common") [] [] r.1)).map fun q =>
    [some q.1.mass, some q.1.density, some q.1.inertia.1, some q.1.translate.2.1, some q.1.axis.2.2, some q.1.angle, q.1.material.map PMat.staticFriction]) = some [some 2, some 0, some 2, some 2, some 2, some 2, some 2] := by
  decide +kernel

end Verif.FArc
