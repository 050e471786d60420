import Verif.ArcPInstSpec
import Verif.ArcBodyProps
import Verif.ArcInstLemmas
import Verif.DocIdsProps

/-!
# C183: instances of physics models are loaded as they were saved

Wanted: an instance of a physics model that is saved is loaded with the same instances of rigid bodies, rigid constraints and force fields, in the same order; each names the same body and scene node and has the same values.
-/

namespace Verif.FArc

open Verif.FEff (Text text)
open Verif.FConv (Ov DateTime Formats shown)

/-- Only what is looked for matters. -/
theorem parms_more (ov : Ov) (len : V3 → ℚ) (vol : Solid → ℚ) (ball : ℚ → ℚ → ℚ) (now : DateTime) (d p : BodyParms) (hs : p.shapes = []) (hm : p.material = none) (x y : Node) (ks : List Node)
    (hx : x.name = text "angular_velocity") (hy : y.name = text "velocity") :
    loadBodyParms ov len vol ball now (some d) p (.elem (text "technique_common") [] [] (x :: y :: ks)) = loadBodyParms ov len vol ball now (some d) {} (.elem (text "technique_common") [] [] ks) := by
  have c : ∀ a : Text, text "angular_velocity" ≠ a → text "velocity" ≠ a →
      (Node.elem (text "technique_common") [] [] (x :: y :: ks)).child a = (Node.elem (text "technique_common") [] [] ks).child a ∧
      (Node.elem (text "technique_common") [] [] (x :: y :: ks)).children a = (Node.elem (text "technique_common") [] [] ks).children a := by
    intro a h1 h2
    rw [child_cons, child_cons, children_cons, children_cons, hx, hy, if_neg h1, if_neg h2, if_neg h1, if_neg h2]
    exact ⟨rfl, rfl⟩
  unfold loadBodyParms bodyDynamic bodyTranslate bodyRotate bodyShapes bodyMaterial bodyMass bodyInertia flagIn dynamicOf
  rw [(c (text "dynamic") (by decide +kernel) (by decide +kernel)).1, (c (text "mass_frame") (by decide +kernel) (by decide +kernel)).1, (c (text "shape") (by decide +kernel) (by decide +kernel)).2,
    (c (text "physics_material") (by decide +kernel) (by decide +kernel)).1, (c (text "mass") (by decide +kernel) (by decide +kernel)).1, (c (text "inertia") (by decide +kernel) (by decide +kernel)).1, hs, hm]

/-- The attributes of the element. -/
theorem inst_props (t s : Text) (ks : List Node) (ht : Plain t) (hs : Plain s) :
    prop (some (.elem (text "instance_rigid_body") [(text "target", 35 :: t), (text "body", s)] [] ks)) (text "target") = some (35 :: t) ∧
    prop (some (.elem (text "instance_rigid_body") [(text "target", 35 :: t), (text "body", s)] [] ks)) (text "body") = some s := by
  refine ⟨prop_raw ?_ ?_, prop_raw ?_ hs⟩
  · rfl
  · intro c hc
    rcases List.mem_cons.1 hc with rfl | hc
    · exact hplain (text "#") (by decide +kernel) 35 (List.mem_singleton.2 rfl)
    · exact ht c hc
  · rfl

theorem find_first {B : Type} (l : List B) (f : B → Text) (i : Nat) (r : B) (h : l[i]? = some r) (hb : ∀ j < i, ∀ q, l[j]? = some q → f q ≠ f r) : l.findIdx? (fun q => decide (f q = f r)) = some i := by
  obtain ⟨hi, e⟩ := List.getElem?_eq_some_iff.1 h
  refine List.findIdx?_eq_some_iff_getElem.2 ⟨hi, by rw [e]; exact decide_eq_true rfl, fun j hj => ?_⟩
  have := hb j hj l[j] (List.getElem?_eq_getElem (by omega))
  simpa using this

/-- **C183, partial.** An instance of a rigid body is loaded as it was saved: it names the same body and scene node, and has the same velocities and parameters (C176). Missing: instances without an accurate inertia, that get the inertia of the body. -/
theorem body_inst_partial (ov : Ov) (len : V3 → ℚ) (vol : Solid → ℚ) (ball : ℚ → ℚ → ℚ) {fmt rnd} (hf : Formats fmt rnd) (h1 : fmt 1 = text "1") (now now' : DateTime) (hn : GoodDate now) (m : PModel) (nodes : List Text)
    (b : BodyInst) (h : GoodBodyInst ov rnd m nodes b) : ∃ k, writeBodyInst ov fmt now m b = some k ∧ k.name = text "instance_rigid_body" ∧
      loadBodyInst ov len vol ball now' (some m) nodes k = some (instAfter ov rnd len vol now b, true) := by
  obtain ⟨i, r, hb, hr, hp, hu⟩ := h.body
  obtain ⟨t, ht, htn, htp⟩ := h.node
  obtain ⟨ks, p', w, _, l⟩ := body_roundtrip_partial ov len vol ball hf h1 now now' hn b.parms h.dynamic h.material h.shapes (text "technique_common") (some r.parms) (.inr h.inertia)
  refine ⟨.elem (text "instance_rigid_body") [(text "target", 35 :: t), (text "body", r.id)] []
    [.elem (text "technique_common") [] [] (textChild (text "angular_velocity") (vecText fmt b.angular) :: textChild (text "velocity") (vecText fmt b.velocity) :: ks)], ?_, rfl, ?_⟩
  · unfold writeBodyInst
    rw [ht, hb, Option.bind_some, Option.bind_some, hr, Option.bind_some, w, Option.map_some]
  · unfold loadBodyInst
    obtain ⟨p1, p2⟩ := inst_props t r.id [.elem (text "technique_common") [] [] (textChild (text "angular_velocity") (vecText fmt b.angular) :: textChild (text "velocity") (vecText fmt b.velocity) :: ks)] htp hp
    rw [p1, p2, Option.bind_some, Option.bind_some]
    simp only [find_first m.bodies RBody.id i r hr hu, hr, Option.bind_some]
    have hc : (Node.elem (text "instance_rigid_body") [(text "target", 35 :: t), (text "body", r.id)] []
        [.elem (text "technique_common") [] [] (textChild (text "angular_velocity") (vecText fmt b.angular) :: textChild (text "velocity") (vecText fmt b.velocity) :: ks)]).child (text "technique_common") =
        some (.elem (text "technique_common") [] [] (textChild (text "angular_velocity") (vecText fmt b.angular) :: textChild (text "velocity") (vecText fmt b.velocity) :: ks)) := by
      rw [child_cons]
      exact if_pos rfl
    rw [hc]
    unfold loadBodyTech
    have ha : vecIn ov (some (.elem (text "technique_common") [] [] (textChild (text "angular_velocity") (vecText fmt b.angular) :: textChild (text "velocity") (vecText fmt b.velocity) :: ks)))
        (text "angular_velocity") (0, 0, 0) = some (shownVec rnd b.angular) := by
      unfold vecIn
      rw [Option.bind_some, child_cons, name_textChild, if_pos rfl]
      show readV3 ov (textChild _ _).direct = _
      rw [direct_vec hf]
      exact readV3_vecText ov hf _
    have hv : vecIn ov (some (.elem (text "technique_common") [] [] (textChild (text "angular_velocity") (vecText fmt b.angular) :: textChild (text "velocity") (vecText fmt b.velocity) :: ks)))
        (text "velocity") (0, 0, 0) = some (shownVec rnd b.velocity) := by
      unfold vecIn
      rw [Option.bind_some, child_cons, name_textChild, if_neg (by decide +kernel), child_cons, name_textChild, if_pos rfl]
      show readV3 ov (textChild _ _).direct = _
      rw [direct_vec hf]
      exact readV3_vecText ov hf _
    simp only [ha, hv, Option.bind_some]
    rw [parms_more ov len vol ball now' r.parms (setBody r.parms) rfl rfl _ _ ks (name_textChild _ _) (name_textChild _ _), l, Option.map_some]
    have hsn : sceneNodeOf nodes (35 :: t) = some t := by
      have e : dropHash (35 :: t) = t := by
        simp [dropHash]
      unfold sceneNodeOf
      rw [e, if_pos htn]
    rw [hsn, ← ht, ← hb]
    unfold instAfter parmsAfter inertiaAfter
    rw [if_pos h.inertia]

theorem con_inst (m : PModel) (c : Option Nat) (h : GoodCon m c) : loadConInst (some m) (conElem m c) = some c := by
  obtain ⟨i, s, rfl, hi, hp, hu⟩ := h
  have e : conElem m (some i) = .elem (text "instance_rigid_constraint") [(text "constraint", s)] [] [] := by
    unfold conElem
    rw [Option.bind_some, hi]
  unfold loadConInst
  rw [e, prop_raw (t := s) rfl hp, Option.bind_some, Option.map_some]
  exact congrArg some (find_first m.constraints id i s hi fun j hj q hq e => hu j hj (by rw [hq]; exact congrArg some e))

/-- The bodies of a list. -/
def bodiesOf (subs : List SubInst) : List BodyInst := subs.filterMap fun s => match s with
  | .body b => some b
  | _ => none

/-- The constraints of a list. -/
def consOf (subs : List SubInst) : List (Option Nat) := subs.filterMap fun s => match s with
  | .con c => some c
  | _ => none

theorem filter_bodies : ∀ subs : List SubInst, subs.filter SubInst.isBody = (bodiesOf subs).map .body
  | [] => rfl
  | .force f :: l => filter_bodies l
  | .body b :: l => congrArg (SubInst.body b :: ·) (filter_bodies l)
  | .con c :: l => filter_bodies l

theorem filter_cons : ∀ subs : List SubInst, subs.filter SubInst.isCon = (consOf subs).map .con
  | [] => rfl
  | .force f :: l => filter_cons l
  | .body b :: l => filter_cons l
  | .con c :: l => congrArg (SubInst.con c :: ·) (filter_cons l)

theorem mem_bodies (subs : List SubInst) (b : BodyInst) (h : b ∈ bodiesOf subs) : SubInst.body b ∈ subs := by
  have : SubInst.body b ∈ subs.filter SubInst.isBody := by rw [filter_bodies]; exact List.mem_map_of_mem h
  exact (List.mem_filter.1 this).1

theorem mem_cons_of (subs : List SubInst) (c : Option Nat) (h : c ∈ consOf subs) : SubInst.con c ∈ subs := by
  have : SubInst.con c ∈ subs.filter SubInst.isCon := by rw [filter_cons]; exact List.mem_map_of_mem h
  exact (List.mem_filter.1 this).1

/-- The bodies one by one. -/
theorem bodies_back (ov : Ov) (len : V3 → ℚ) (vol : Solid → ℚ) (ball : ℚ → ℚ → ℚ) {fmt rnd} (hf : Formats fmt rnd) (h1 : fmt 1 = text "1") (now now' : DateTime) (hn : GoodDate now) (m : PModel) (nodes : List Text) :
    ∀ bs : List BodyInst, (∀ b ∈ bs, GoodBodyInst ov rnd m nodes b) → ∃ ks, (bs.map SubInst.body).mapM (subElem ov fmt now m) = some ks ∧ (∀ k ∈ ks, k.name = text "instance_rigid_body") ∧
      ks.mapM (loadBodyInst ov len vol ball now' (some m) nodes) = some (bs.map fun b => (instAfter ov rnd len vol now b, true))
  | [], _ => ⟨[], rfl, by simp, rfl⟩
  | b :: bs, h => by
    obtain ⟨k, w, wn, wl⟩ := body_inst_partial ov len vol ball hf h1 now now' hn m nodes b (h b List.mem_cons_self)
    obtain ⟨ks, u, un, ul⟩ := bodies_back ov len vol ball hf h1 now now' hn m nodes bs fun x hx => h x (List.mem_cons_of_mem b hx)
    have hw : subElem ov fmt now m (.body b) = some k := w
    refine ⟨k :: ks, ?_, ?_, ?_⟩
    · rw [List.map_cons, List.mapM_cons, hw, u]
      rfl
    · intro x hx
      rcases List.mem_cons.1 hx with rfl | hx
      · exact wn
      · exact un x hx
    · rw [List.mapM_cons, wl, ul]
      rfl

theorem cons_back (ov : Ov) (fmt : ℚ → Text) (now : DateTime) (m : PModel) : ∀ cs : List (Option Nat), (∀ c ∈ cs, GoodCon m c) →
    (cs.map SubInst.con).mapM (subElem ov fmt now m) = some (cs.map (conElem m)) ∧ (cs.map (conElem m)).mapM (loadConInst (some m)) = some cs
  | [], _ => ⟨rfl, rfl⟩
  | c :: cs, h => by
    obtain ⟨u, ul⟩ := cons_back ov fmt now m cs fun x hx => h x (List.mem_cons_of_mem c hx)
    have hc := con_inst m c (h c List.mem_cons_self)
    constructor
    · rw [List.map_cons, List.mapM_cons, u]
      rfl
    · rw [List.map_cons, List.mapM_cons, hc, ul]
      rfl

/-- **C183, partial.** An instance of a physics model without force fields is loaded with the rigid bodies it was saved with, in their order, and then the rigid constraints, in their order. Missing: what is missing for rigid
bodies, the order between the two kinds (`inst_order_violated`), and force fields (`inst_force_violated`). -/
theorem model_inst_partial (ov : Ov) (len : V3 → ℚ) (vol : Solid → ℚ) (ball : ℚ → ℚ → ℚ) {fmt rnd} (hf : Formats fmt rnd) (h1 : fmt 1 = text "1") (now now' : DateTime) (hn : GoodDate now) (m : PModel) (nodes : List Text)
    (subs : List SubInst) (h : ∀ s ∈ subs, GoodSub ov rnd m nodes s) : ∃ k, writeModelInst ov fmt now m subs = some k ∧
      loadModelInst ov len vol ball now' (some m) nodes k = some ((subs.filter SubInst.isBody).map (subAfter ov rnd len vol now) ++ subs.filter SubInst.isCon, true) := by
  obtain ⟨ks, w, wn, wl⟩ := bodies_back ov len vol ball hf h1 now now' hn m nodes (bodiesOf subs) fun b hb => h _ (mem_bodies subs b hb)
  obtain ⟨u, ul⟩ := cons_back ov fmt now m (consOf subs) fun c hc => h _ (mem_cons_of subs c hc)
  have hforce : subs.filter SubInst.isForce = [] := by
    rw [List.filter_eq_nil_iff]
    intro s hs hforce
    cases s with
    | force f => exact h _ hs
    | body b => cases hforce
    | con c => cases hforce
  refine ⟨.elem (text "instance_physics_model") [] [] (ks ++ (consOf subs).map (conElem m)), ?_, ?_⟩
  · unfold writeModelInst
    rw [hforce, List.nil_append, filter_bodies, filter_cons, List.mapM_append, w, u]
    rfl
  · have hcn : ∀ k ∈ (consOf subs).map (conElem m), k.name = text "instance_rigid_constraint" := by
      intro k hk
      obtain ⟨c, _, rfl⟩ := List.mem_map.1 hk
      rfl
    unfold loadModelInst
    rw [children_append, children_append, children_append, children_all wn, children_other (a := text "instance_rigid_body") fun k hk => by rw [hcn k hk]; decide +kernel,
      children_other (a := text "instance_rigid_constraint") fun k hk => by rw [wn k hk]; decide +kernel, children_all hcn, children_other (a := text "instance_force_field") fun k hk => by rw [wn k hk]; decide +kernel,
      children_other (a := text "instance_force_field") fun k hk => by rw [hcn k hk]; decide +kernel, List.append_nil, List.nil_append, wl, ul]
    simp only [Option.bind_some, List.append_nil, if_true, filter_bodies, filter_cons, List.map_map]
    congr 1
    refine Prod.ext rfl ?_
    simp

/-- **C183.** What the element of an instance of a rigid body does not tell is as in the body: with no values at all the instance has those of the body, but for the material and the shapes, and does not move. Without the element
of the values the loading fails. -/
theorem body_inst_default (ov : Ov) (len : V3 → ℚ) (vol : Solid → ℚ) (ball : ℚ → ℚ → ℚ) (now : DateTime) (m : PModel) (nodes : List Text) (n : Node) (t : Text) (i : Nat) (r : RBody) (hr : m.bodies[i]? = some r)
    (hu : ∀ j < i, ∀ q, m.bodies[j]? = some q → q.id ≠ r.id) (ht : prop (some n) (text "target") = some t) (hs : prop (some n) (text "body") = some r.id) :
    (∀ nm, n.child (text "technique_common") = some (.elem nm [] [] []) → loadBodyInst ov len vol ball now (some m) nodes n =
      some (⟨some i, sceneNodeOf nodes t, (0, 0, 0), (0, 0, 0), { r.parms with dynamic := if 1 / 2 < r.parms.dynamic then 1 else 0, material := none, shapes := [] }⟩, true)) ∧
    (n.child (text "technique_common") = none → loadBodyInst ov len vol ball now (some m) nodes n =
      some (⟨some i, sceneNodeOf nodes t, (0, 0, 0), (0, 0, 0), { r.parms with dynamic := if 1 / 2 ≤ r.parms.dynamic then 1 else 0, material := none, shapes := [] }⟩, false)) := by
  constructor
  · intro nm hc
    unfold loadBodyInst
    rw [ht, hs, Option.bind_some, Option.bind_some]
    simp only [find_first m.bodies RBody.id i r hr hu, hr, Option.bind_some, hc]
    rfl
  · intro hc
    unfold loadBodyInst
    rw [ht, hs, Option.bind_some, Option.bind_some]
    simp only [find_first m.bodies RBody.id i r hr hu, hr, Option.bind_some, hc]
    rfl

/-! ## What does not hold -/

/-- **C183, violated.** The names of bodies in a file are local to their model, but they are made unique in the whole document: if another object of the document has the name, as a body of another model, an instance in the file that
names the body of this model is loaded without its body, velocities and parameters, and the loading fails. -/
theorem body_named_violated (ov : Ov) (len : V3 → ℚ) (vol : Solid → ℚ) (ball : ℚ → ℚ → ℚ) (now : DateTime) {d : FIds.Doc} (hd : FIds.Reach d) (m : PModel) (nodes : List Text) (s t : Text) (i : Nat) (hi : FIds.Holds d i s)
    (hm : ∀ q ∈ m.bodies, ∃ j ≠ i, FIds.Holds d j q.id) (n : Node) (ht : prop (some n) (text "target") = some t) (hs : prop (some n) (text "body") = some s) :
    loadBodyInst ov len vol ball now (some m) nodes n = some ({ node := sceneNodeOf nodes t }, false) := by
  unfold loadBodyInst
  rw [ht, hs, Option.bind_some, Option.bind_some]
  have : m.bodies.findIdx? (fun q => decide (q.id = s)) = none := by
    rw [List.findIdx?_eq_none_iff]
    intro q hq
    obtain ⟨j, hj, h⟩ := hm q hq
    exact decide_eq_false (FIds.ids_unique_partial hd h hi hj)
  simp only [this]

/-- The second of two bodies that are given the sub-id "b" has another one. -/
example : ((FIds.setDaeId (FIds.create (FIds.create ⟨FTree.Map.empty, []⟩ [97]) [97]) 0 (text "b")).bind fun d => (FIds.setDaeId d 1 (text "b")).bind fun d => (d.obj 0).bind fun x => (d.obj 1).map fun y => (x, y)) =
    some (⟨text "b", true⟩, ⟨text "b1", true⟩) := by decide +kernel

/-- **C183, violated.** An instance of a rigid body without a scene node, as copies are (C102), or without a body cannot be saved: a null pointer is followed. -/
theorem inst_target_violated (ov : Ov) (fmt : ℚ → Text) (now : DateTime) (m : PModel) (b : BodyInst) (h : b.node = none ∨ b.body = none) : writeBodyInst ov fmt now m b = none := by
  unfold writeBodyInst
  rcases h with h | h
  · rw [h]
    rfl
  · rw [h]
    cases b.node <;> rfl

/-- **C183, violated.** No file with an instance of a force field in an instance of a physics model can be loaded: a null pointer is put into the list of instances. -/
theorem inst_force_violated (ov : Ov) (len : V3 → ℚ) (vol : Solid → ℚ) (ball : ℚ → ℚ → ℚ) (now : DateTime) (m : Option PModel) (nodes : List Text) (n : Node) (h : n.children (text "instance_force_field") ≠ []) :
    loadModelInst ov len vol ball now m nodes n = none := by
  unfold loadModelInst
  simp only [if_neg h, Option.bind_none, Option.bind_fun_none]

/-- **C183, violated.** In an instance whose model is not found, an instance of a rigid body with its values or of a rigid constraint cannot be loaded: a null pointer is followed. -/
theorem inst_model_violated (ov : Ov) (len : V3 → ℚ) (vol : Solid → ℚ) (ball : ℚ → ℚ → ℚ) (now : DateTime) (nodes : List Text) (n : Node) :
    ((n.child (text "technique_common")).isSome = true → loadBodyInst ov len vol ball now none nodes n = none) ∧ loadConInst none n = none := by
  constructor
  · intro h
    unfold loadBodyInst
    simp only [if_pos h, Option.bind_fun_none]
  · unfold loadConInst
    simp only [Option.map_none, Option.bind_fun_none]

/-- A model with two bodies and a constraint. -/
def samplePModel : PModel := ⟨[⟨text "b", {}⟩, ⟨text "c", {}⟩], [text "k"]⟩

/-- An instance of the second body. -/
def sampleBodyInst : BodyInst := { body := some 1, node := some (text "n"), velocity := (1, 0, 0), parms := { sampleBody with inertiaAccurate := true } }

example (hb : ∀ s ∈ sampleBody.shapes, GoodShape s) (hm : ∀ m, sampleBody.material = some m → GoodPMat .wrap (fun _ => 3 / 2) m) :
    ∀ s ∈ [SubInst.con (some 0), .body sampleBodyInst], GoodSub .wrap (fun _ => 3 / 2) samplePModel [text "n"] s := by
  intro s hs
  rcases List.mem_cons.1 hs with rfl | hs
  · exact ⟨0, text "k", rfl, rfl, hplain _ (by decide +kernel), fun j hj => absurd hj (Nat.not_lt_zero j)⟩
  · rw [List.mem_singleton.1 hs]
    refine ⟨⟨1, ⟨text "c", {}⟩, rfl, rfl, hplain _ (by decide +kernel), fun j hj q hq => ?_⟩, ⟨text "n", rfl, List.mem_singleton.2 rfl, hplain _ (by decide +kernel)⟩, .inl rfl, hm, hb, rfl⟩
    have : j = 0 := by omega
    subst this
    cases hq
    decide +kernel

/-- **C183, violated.** The order of the instances is not kept. -/
theorem inst_order_violated : ((writeModelInst .wrap fmt02 sampleDate samplePModel [.con (some 0), .body { sampleBodyInst with parms := {} }]).bind
    fun k => (loadModelInst .wrap lenAxis (fun _ => 2) (fun _ _ => 0) sampleDate (some samplePModel) [text "n"] k).map fun r => (r.1.map SubInst.isBody, r.2)) = some ([true, false], true) := by decide +kernel

end Verif.FArc
