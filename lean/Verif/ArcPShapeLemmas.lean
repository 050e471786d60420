import Verif.ArcPShapeSpec
import Verif.ArcSolidProps
import Verif.ArcPlainEnt

/-! # Lemmas for the saving and loading of physics materials and shapes -/

namespace Verif.FArc

open Verif.FEff (Text text)
open Verif.FConv (Ov DateTime Formats shown)

theorem floatIn_some (ov : Ov) {n k : Node} {name : Text} (h : n.child name = some k) (old : ℚ) : floatIn ov (some n) name old = readNum ov k.direct := by
  unfold floatIn
  rw [Option.bind_some, h]

theorem pmatValues_read (ov : Ov) {fmt rnd} (hf : Formats fmt rnd) (m : PMat) (old : ℚ) :
    floatIn ov (some (pmatValues fmt m)) (text "static_friction") old = some (shown rnd m.staticFriction) ∧
    floatIn ov (some (pmatValues fmt m)) (text "dynamic_friction") old = some (shown rnd m.dynamicFriction) ∧
    floatIn ov (some (pmatValues fmt m)) (text "restitution") old = some (shown rnd m.restitution) := by
  refine ⟨?_, ?_, ?_⟩
  · rw [floatIn_some ov (k := valueChild (text "static_friction") (numText fmt m.staticFriction)) (by simp [pmatValues, Node.child, kids_elem, name_value, text_inj]), direct_value, readNum_numText ov hf]
  · rw [floatIn_some ov (k := valueChild (text "dynamic_friction") (numText fmt m.dynamicFriction)) (by simp [pmatValues, Node.child, kids_elem, name_value]), direct_value, readNum_numText ov hf]
  · rw [floatIn_some ov (k := valueChild (text "restitution") (numText fmt m.restitution)) (by simp [pmatValues, Node.child, kids_elem, name_value, text_inj]), direct_value, readNum_numText ov hf]

theorem wrapper_load (ov : Ov) (now : DateTime) (k : Node) (hk : k.name = text "physics_material") : loadPMat ov now {} (.elem (text "physics_material") [] [] [k]) = some {} := by
  have h1 : (Node.elem (text "physics_material") [] [] [k]).child (text "asset") = none := by simp [Node.child, kids_elem, hk, text_inj]
  have h2 : (Node.elem (text "physics_material") [] [] [k]).child (text "technique_common") = none := by simp [Node.child, kids_elem, hk, text_inj]
  have h3 : (Node.elem (text "physics_material") [] [] [k]).children (text "extra") = [] := by simp [Node.children, kids_elem, hk, text_inj]
  have p1 : ∀ a, prop (some (Node.elem (text "physics_material") [] [] [k])) a = some [] := fun a => prop_absent rfl
  have p2 : givenName [] [] = some [] := by decide +kernel
  unfold loadPMat loadEnt loadEntAsset
  rw [p1, p1, Option.bind_some, Option.bind_some, p2, Option.bind_some, h1]
  simp only [h2, h3, Option.bind_some, List.foldlM_nil]
  simp [floatIn]

theorem direct_num {fmt rnd} (hf : Formats fmt rnd) (n : Text) (q : ℚ) : (textChild n (numText fmt q)).direct = numText fmt q := by
  rw [numText_eq hf, direct_nums hf]

theorem hollow_step (ov : Ov) (len : V3 → ℚ) (now : DateTime) (s : PShape) (st b : Bool) : shapeStep ov len now (s, st) (hollowKid b) = some ({ s with hollow := b }, st) := by
  have h : readBool (hollowKid b).direct = some b := by cases b <;> decide +kernel
  unfold shapeStep
  rw [h]
  exact if_pos rfl

theorem mass_step (ov : Ov) (len : V3 → ℚ) (now : DateTime) {fmt rnd} (hf : Formats fmt rnd) (s : PShape) (st : Bool) (q : ℚ) :
    shapeStep ov len now (s, st) (textChild (text "mass") (numText fmt q)) = some ({ s with mass := some (shown rnd q), accurate := false }, st) := by
  unfold shapeStep
  rw [name_textChild, if_neg (by simp [text_inj]), if_pos rfl, direct_num hf, readNum_numText ov hf, Option.map_some]

theorem density_step (ov : Ov) (len : V3 → ℚ) (now : DateTime) {fmt rnd} (hf : Formats fmt rnd) (s : PShape) (st : Bool) (q : ℚ) :
    shapeStep ov len now (s, st) (textChild (text "density") (numText fmt q)) = some ({ s with density := some (shown rnd q), accurate := s.mass.isNone }, st) := by
  unfold shapeStep
  rw [name_textChild, if_neg (by simp [text_inj]), if_neg (by simp [text_inj]), if_pos rfl, direct_num hf, readNum_numText ov hf, Option.map_some]

theorem material_step (ov : Ov) (len : V3 → ℚ) (now : DateTime) (s : PShape) (st : Bool) (k : Node) (hk : k.name = text "physics_material") :
    shapeStep ov len now (s, st) (.elem (text "physics_material") [] [] [k]) = some ({ s with material := some {} }, st) := by
  unfold shapeStep
  rw [wrapper_load ov now k hk, elem_name, if_neg (by simp [text_inj]), if_neg (by simp [text_inj]), if_neg (by simp [text_inj]), if_pos rfl, Option.map_some]

theorem solid_step (ov : Ov) (len : V3 → ℚ) (now : DateTime) {fmt rnd} (hf : Formats fmt rnd) (s : PShape) (st : Bool) (x : Solid) (hx : ¬ x.isPlane) :
    shapeStep ov len now (s, st) (writeSolid fmt x) = some ({ s with solid := some (shownSolid rnd x) }, true) := by
  have h : solidKid ov len (s, st) (writeSolid fmt x) = some ({ s with solid := some (shownSolid rnd x) }, true) := by
    unfold solidKid
    rw [solid_roundtrip_partial ov hf x hx, Option.bind_some]
  unfold shapeStep
  rw [h]
  cases x <;> simp [writeSolid, text_inj]

theorem trans_solid (ov : Ov) {fmt rnd} (hf : Formats fmt rnd) (t : Trans) : loadSolid ov (transNode fmt t) = some none := by
  rw [transNode_eq hf]
  unfold loadSolid
  rw [elem_name]
  cases t <;> simp [transName, newSolid, text_inj]

theorem trans_step (ov : Ov) (len : V3 → ℚ) (now : DateTime) {fmt rnd} (hf : Formats fmt rnd) (s : PShape) (st : Bool) (t : Trans) :
    shapeStep ov len now (s, st) (transNode fmt t) = some (if rigid t then { s with transforms := s.transforms ++ [shownTrans rnd len t] } else s, st) := by
  have h : placeStep ov len (s, st) (transNode fmt t) = some (if rigid t then { s with transforms := s.transforms ++ [shownTrans rnd len t] } else s, st) := by
    unfold placeStep
    obtain ⟨o, ho, hn⟩ := newTrans_kind t
    have hname : (transNode fmt t).name = transName t := by rw [transNode_eq hf, elem_name]
    rw [hname, ho]
    have hr : rigid o = rigid t := by
      cases t <;> cases o <;> simp [transName, text_inj] at hn <;> rfl
    by_cases hg : rigid t = true
    · have hl := loadTransform_write ov len hf t (by cases t <;> simp [rigid] at hg <;> trivial) o ho (transNode fmt t) (by rw [transNode_eq hf, direct_elem])
      simp only [hr, hg, if_true, hl, Option.map_some, Bool.and_true]
    · simp only [hr, hg, Bool.false_eq_true, if_false]
  have h2 : solidKid ov len (s, st) (transNode fmt t) = placeStep ov len (s, st) (transNode fmt t) := by
    unfold solidKid
    rw [trans_solid ov hf, Option.bind_some]
    rw [transNode_eq hf]
    cases t <;> simp [transName, text_inj]
  rw [← h, ← h2]
  unfold shapeStep
  rw [transNode_eq hf]
  cases t <;> simp [transName, text_inj]

theorem trans_fold (ov : Ov) (len : V3 → ℚ) (now : DateTime) {fmt rnd} (hf : Formats fmt rnd) (ts : List Trans) (s : PShape) (st : Bool) :
    (ts.map (transNode fmt)).foldlM (shapeStep ov len now) (s, st) = some ({ s with transforms := s.transforms ++ (ts.filter rigid).map (shownTrans rnd len) }, st) := by
  induction ts generalizing s with
  | nil => simp
  | cons t ts ih =>
    rw [List.map_cons, List.foldlM_cons, trans_step ov len now hf]
    show (List.map (transNode fmt) ts).foldlM (shapeStep ov len now) _ = _
    rw [ih]
    by_cases hr : rigid t = true
    · simp [hr]
    · simp [hr]

/-- What the children of a shape are read as. -/
theorem shape_fold (ov : Ov) (len : V3 → ℚ) (now now' : DateTime) {fmt rnd} (hf : Formats fmt rnd) (s : PShape) (hp : NoPlane s) (r : List Node × Option PMat) (hr : materialKid ov fmt now s.material = some r)
    (m d : Option ℚ) (hm : massKid fmt s = (m.map fun q => textChild (text "mass") (numText fmt q)).toList) (hd : densityKid fmt s = (d.map fun q => textChild (text "density") (numText fmt q)).toList) :
    ([hollowKid s.hollow] ++ massKid fmt s ++ densityKid fmt s ++ r.1 ++ (s.solid.map (writeSolid fmt)).toList ++ s.transforms.map (transNode fmt)).foldlM (shapeStep ov len now') ({}, true) =
      some (⟨s.hollow, m.map (shown rnd), d.map (shown rnd), d.isSome && m.isNone, s.material.map fun _ => {}, s.solid.map (shownSolid rnd), (s.transforms.filter rigid).map (shownTrans rnd len)⟩, true) := by
  have e1 : (massKid fmt s).foldlM (shapeStep ov len now') (({ hollow := s.hollow } : PShape), true) = some ({ hollow := s.hollow, mass := m.map (shown rnd) }, true) := by
    rw [hm]; cases m with
    | none => rfl
    | some q => simp [mass_step ov len now' hf]
  have e2 : (densityKid fmt s).foldlM (shapeStep ov len now') (({ hollow := s.hollow, mass := m.map (shown rnd) } : PShape), true) =
      some ({ hollow := s.hollow, mass := m.map (shown rnd), density := d.map (shown rnd), accurate := d.isSome && m.isNone }, true) := by
    rw [hd]; cases d with
    | none => rfl
    | some q => simp [density_step ov len now' hf]
  have e3 : ∀ x : PShape, x.material = none → r.1.foldlM (shapeStep ov len now') (x, true) = some ({ x with material := s.material.map fun _ => {} }, true) := by
    intro x hx
    unfold materialKid at hr
    cases hs : s.material with
    | none =>
      rw [hs] at hr
      cases hr
      rw [Option.map_none, ← hx]; rfl
    | some pm =>
      rw [hs] at hr
      obtain ⟨q, hq, rfl⟩ := Option.map_eq_some_iff.1 hr
      have hn : q.1.name = text "physics_material" := by
        unfold writePMat writeEnt at hq
        obtain ⟨e, he, rfl⟩ := Option.map_eq_some_iff.1 hq
        obtain ⟨a, -, he⟩ := Option.bind_eq_some_iff.1 he
        obtain ⟨y, -, rfl⟩ := Option.map_eq_some_iff.1 he
        rfl
      simp [material_step ov len now' x true q.1 hn]
  have e4 : ∀ x : PShape, x.solid = none → (s.solid.map (writeSolid fmt)).toList.foldlM (shapeStep ov len now') (x, true) = some ({ x with solid := s.solid.map (shownSolid rnd) }, true) := by
    intro x hx
    cases hs : s.solid with
    | none => rw [Option.map_none, Option.map_none, ← hx]; rfl
    | some v => simp [solid_step ov len now' hf x true v (hp v hs)]
  simp only [List.foldlM_append, List.foldlM_cons, List.foldlM_nil, hollow_step, Option.bind_eq_bind, Option.bind_some, Option.pure_def, e1, e2]
  rw [e3 _ rfl, Option.bind_some, e4 _ rfl, Option.bind_some, trans_fold ov len now' hf]
  simp

end Verif.FArc
