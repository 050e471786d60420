import Verif.ArcPModelSpec
import Verif.ArcPInstProps
import Verif.ArcRigidProps

/-!
# C184: physics models are loaded as they were saved

Wanted: a physics model that is saved is loaded with the same rigid bodies, rigid constraints and instances of other models, in their order; the ends of the constraints are the same; and a failure in one of them is a failure of
the loading.
-/

namespace Verif.FArc

open Verif.FEff (Text text)
open Verif.FConv (Ov DateTime Formats shown)

theorem rbody_back (ov : Ov) (len : V3 → ℚ) (vol : Solid → ℚ) (ball : ℚ → ℚ → ℚ) {fmt rnd} (hf : Formats fmt rnd) (h1 : fmt 1 = text "1") (now now' : DateTime) (hn : GoodDate now) (r : RBody) (hp : Plain r.id)
    (hd : IsFlag r.parms.dynamic) (hm : ∀ x, r.parms.material = some x → GoodPMat ov rnd x) (hs : ∀ s ∈ r.parms.shapes, GoodShape s) :
    ∃ k, writeRBody ov fmt now r = some k ∧ k.name = text "rigid_body" ∧ loadRBody ov len vol ball now' k = some (rbodyAfter ov rnd len vol ball now r, true) := by
  obtain ⟨ks, p', w, _, l⟩ := body_roundtrip_partial ov len vol ball hf h1 now now' hn r.parms hd hm hs (text "technique_common") none (.inl rfl)
  refine ⟨.elem (text "rigid_body") [(text "sid", r.id)] [] [.elem (text "technique_common") [] [] ks], ?_, rfl, ?_⟩
  · unfold writeRBody
    rw [w, Option.map_some]
  · have hc : (Node.elem (text "rigid_body") [(text "sid", r.id)] [] [.elem (text "technique_common") [] [] ks]).child (text "technique_common") = some (.elem (text "technique_common") [] [] ks) := by
      rw [child_cons]
      exact if_pos rfl
    unfold loadRBody
    rw [prop_raw (t := r.id) rfl hp, Option.bind_some]
    simp only [hc, l, Option.map_some]
    rfl

theorem step_instances (ov : Ov) (len : V3 → ℚ) (vol : Solid → ℚ) (ball : ℚ → ℚ → ℚ) (now : DateTime) (nodes : List Text) : ∀ (ks : List Node) (s : PhysModel × Bool), (∀ k ∈ ks, k.name = text "instance_physics_model") →
    ks.foldlM (modelStep ov len vol ball now nodes) s = some (⟨s.1.bodies, s.1.constraints, s.1.instances ++ ks⟩, s.2)
  | [], s, _ => by rw [List.append_nil]; rfl
  | k :: ks, s, h => by
    have e : modelStep ov len vol ball now nodes s k = some (⟨s.1.bodies, s.1.constraints, s.1.instances ++ [k]⟩, s.2) := by
      unfold modelStep
      rw [h k List.mem_cons_self, if_neg (by decide +kernel), if_neg (by decide +kernel), if_pos rfl]
    rw [List.foldlM_cons, e]
    refine (step_instances ov len vol ball now nodes ks _ fun x hx => h x (List.mem_cons_of_mem k hx)).trans ?_
    simp

theorem step_bodies (ov : Ov) (len : V3 → ℚ) (vol : Solid → ℚ) (ball : ℚ → ℚ → ℚ) {fmt rnd} (hf : Formats fmt rnd) (h1 : fmt 1 = text "1") (now now' : DateTime) (hn : GoodDate now) (nodes : List Text) :
    ∀ rs : List RBody, (∀ r ∈ rs, Plain r.id) → (∀ r ∈ rs, IsFlag r.parms.dynamic) → (∀ r ∈ rs, ∀ x, r.parms.material = some x → GoodPMat ov rnd x) → (∀ r ∈ rs, ∀ s ∈ r.parms.shapes, GoodShape s) →
      ∃ ks, rs.mapM (writeRBody ov fmt now) = some ks ∧ ∀ s : PhysModel × Bool, ks.foldlM (modelStep ov len vol ball now' nodes) s =
        some (⟨s.1.bodies ++ rs.map (rbodyAfter ov rnd len vol ball now), s.1.constraints, s.1.instances⟩, s.2)
  | [], _, _, _, _ => ⟨[], rfl, fun s => by rw [List.map_nil, List.append_nil]; rfl⟩
  | r :: rs, hp, hd, hm, hs => by
    obtain ⟨k, w, wn, wl⟩ := rbody_back ov len vol ball hf h1 now now' hn r (hp r List.mem_cons_self) (hd r List.mem_cons_self) (hm r List.mem_cons_self) (hs r List.mem_cons_self)
    obtain ⟨ks, u, ul⟩ := step_bodies ov len vol ball hf h1 now now' hn nodes rs (fun x hx => hp x (List.mem_cons_of_mem r hx)) (fun x hx => hd x (List.mem_cons_of_mem r hx)) (fun x hx => hm x (List.mem_cons_of_mem r hx))
      fun x hx => hs x (List.mem_cons_of_mem r hx)
    refine ⟨k :: ks, ?_, fun s => ?_⟩
    · rw [List.mapM_cons, w, u]
      rfl
    · have e : modelStep ov len vol ball now' nodes s k = some (⟨s.1.bodies ++ [rbodyAfter ov rnd len vol ball now r], s.1.constraints, s.1.instances⟩, s.2) := by
        unfold modelStep
        rw [if_pos wn, wl, Option.map_some, Bool.and_true]
      rw [List.foldlM_cons, e]
      refine (ul _).trans ?_
      simp

theorem step_cons (ov : Ov) (len : V3 → ℚ) (vol : Solid → ℚ) (ball : ℚ → ℚ → ℚ) {fmt rnd} (hf : Formats fmt rnd) (h1 : fmt 1 = text "1") (now : DateTime) (nodes bodies : List Text) :
    ∀ (cs : List (Text × Constraint)) (s : PhysModel × Bool), s.1.bodies.map RBody.id = bodies → (∀ c ∈ cs, Plain c.1) → (∀ c ∈ cs, IsFlag c.2.enabled ∧ IsFlag c.2.interpenetrate) →
      (∀ c ∈ cs, GoodAttach bodies nodes c.2.ref ∧ GoodAttach bodies nodes c.2.tar) →
      (cs.map (writeRCon fmt bodies)).foldlM (modelStep ov len vol ball now nodes) s = some (⟨s.1.bodies, s.1.constraints ++ cs.map fun c => (c.1, constraintAfter rnd len c.2), s.1.instances⟩, s.2)
  | [], s, _, _, _, _ => by rw [List.map_nil, List.map_nil, List.append_nil]; rfl
  | c :: cs, s, hb, hp, hf', ha => by
    have l := constraint_roundtrip_partial ov len hf h1 bodies nodes c.2 (hf' c List.mem_cons_self).1 (hf' c List.mem_cons_self).2 (ha c List.mem_cons_self).1 (ha c List.mem_cons_self).2 (text "rigid_constraint")
      [(text "sid", c.1)] [] [] (by simp) (by simp)
    rw [List.nil_append, List.append_nil] at l
    have e : modelStep ov len vol ball now nodes s (writeRCon fmt bodies c) = some (⟨s.1.bodies, s.1.constraints ++ [(c.1, constraintAfter rnd len c.2)], s.1.instances⟩, s.2) := by
      unfold modelStep
      have hn : (writeRCon fmt bodies c).name = text "rigid_constraint" := rfl
      have hc : prop (some (writeRCon fmt bodies c)) (text "sid") = some c.1 := prop_raw rfl (hp c List.mem_cons_self)
      have hl : loadConstraint ov len bodies nodes (writeRCon fmt bodies c) = some (constraintAfter rnd len c.2, true) := l
      rw [hn, if_neg (by decide +kernel), if_pos rfl, hc, Option.bind_some, hb, hl, Option.map_some, Bool.and_true]
    rw [List.map_cons, List.foldlM_cons, e]
    refine (step_cons ov len vol ball hf h1 now nodes bodies cs (⟨s.1.bodies, s.1.constraints ++ [(c.1, constraintAfter rnd len c.2)], s.1.instances⟩, s.2) hb (fun x hx => hp x (List.mem_cons_of_mem c hx)) (fun x hx => hf' x (List.mem_cons_of_mem c hx)) fun x hx => ha x (List.mem_cons_of_mem c hx)).trans ?_
    simp

/-- **C184, partial.** A physics model with any number of rigid bodies and constraints is loaded as it was saved: the bodies with their names and parameters (C176), the constraints with their names, values and ends (C175), all in
their order, and the instances are the ones it was saved with. Missing: what is missing in C175 and C176, and the order in which the instances are added (`attach_order_violated`). -/
theorem phys_model_roundtrip_partial (ov : Ov) (len : V3 → ℚ) (vol : Solid → ℚ) (ball : ℚ → ℚ → ℚ) {fmt rnd} (hf : Formats fmt rnd) (h1 : fmt 1 = text "1") (now now' : DateTime) (hn : GoodDate now) (nodes : List Text)
    (m : PhysModel) (h : GoodPhysModel ov rnd nodes m) : ∃ k, writePhysModel ov fmt now m = some k ∧ loadPhysModel ov len vol ball now' nodes k =
      some (⟨m.bodies.map (rbodyAfter ov rnd len vol ball now), m.constraints.map fun c => (c.1, constraintAfter rnd len c.2), m.instances⟩, true) := by
  obtain ⟨ks, w, l⟩ := step_bodies ov len vol ball hf h1 now now' hn nodes m.bodies h.name h.dynamic h.material h.shapes
  refine ⟨.elem (text "physics_model") [] [] (m.instances ++ ks ++ m.constraints.map (writeRCon fmt (m.bodies.map RBody.id))), ?_, ?_⟩
  · unfold writePhysModel
    rw [w, Option.map_some]
  · unfold loadPhysModel
    rw [if_neg (not_not.2 (show (Node.elem (text "physics_model") [] [] _).name = text "physics_model" from rfl)), kids_elem, List.foldlM_append, List.foldlM_append, step_instances ov len vol ball now' nodes m.instances _ h.instances, Option.bind_eq_bind, Option.bind_some, l, Option.bind_some,
      step_cons ov len vol ball hf h1 now' nodes (m.bodies.map RBody.id) m.constraints _ ?_ h.sid h.flags h.ends]
    · simp
    · simp [Function.comp_def, rbodyAfter]

/-- **C184.** All instances are added, each once. -/
theorem attach_all {A : Type} (addr : Nat → Nat) (l : List A) : (attachOrder addr l).Perm l := by
  unfold attachOrder
  refine ((List.perm_insertionSort _ _).map _).trans ?_
  rw [List.map_map]
  have : ((fun x : Nat × A => x.2) ∘ fun x : A × Nat => (addr x.2, x.1)) = Prod.fst := rfl
  rw [this, List.zipIdx_map_fst]

/-- **C184, partial.** If the elements of a file are at increasing addresses, the instances are added in the order of the file. Missing: other addresses (`attach_order_violated`). -/
theorem attach_order_partial {A : Type} (addr : Nat → Nat) (l : List A) (h : ∀ i j, i < j → addr i < addr j) : attachOrder addr l = l := by
  unfold attachOrder
  rw [List.Pairwise.insertionSort_eq, List.map_map]
  · have : ((fun x : Nat × A => x.2) ∘ fun x : A × Nat => (addr x.2, x.1)) = Prod.fst := rfl
    rw [this, List.zipIdx_map_fst]
  · rw [List.pairwise_map, List.pairwise_iff_getElem]
    intro i j hi hj hij
    rw [List.getElem_zipIdx, List.getElem_zipIdx]
    exact (h _ _ (by omega)).le

/-! ## What does not hold -/

/-- **C184, violated.** The order of the instances depends on the addresses of the elements in memory: two are swapped if the second is at a lower address. -/
theorem attach_order_violated {A : Type} (addr : Nat → Nat) (a b : A) (h : addr 1 < addr 0) : attachOrder addr [a, b] = [b, a] := by
  have : ¬ addr 0 ≤ addr 1 := by omega
  simp [attachOrder, List.zipIdx_cons, List.orderedInsert, this]

/-- **C184, violated.** Shapes that cannot be loaded do not fail the loading of their rigid body, and a rigid body without values does not fail either. -/
theorem rbody_status_violated (ov : Ov) (len : V3 → ℚ) (vol : Solid → ℚ) (ball : ℚ → ℚ → ℚ) (now : DateTime) (n : Node) (r : RBody) (ok : Bool) (h : loadRBody ov len vol ball now n = some (r, ok)) : ok = true := by
  unfold loadRBody at h
  obtain ⟨s, _, h⟩ := Option.bind_eq_some_iff.1 h
  cases hc : n.child (text "technique_common") with
  | none => rw [hc] at h; cases h; rfl
  | some k =>
    rw [hc] at h
    obtain ⟨p, _, e⟩ := Option.map_eq_some_iff.1 h
    exact (Prod.mk.inj e).2.symm

/-- A hinge between the body "b" and nothing. -/
def loneHinge : Constraint := { ref := .body 0 }

/-- **C184, violated.** A rigid constraint that comes before its rigid body in the file is loaded without it, and nothing fails; after it, it has it. -/
theorem late_body_violated :
    ((writeRBody .wrap fmt02 sampleDate ⟨text "b", {}⟩).bind fun k => (loadPhysModel .wrap lenAxis (fun _ => 2) (fun _ _ => 0) sampleDate [] (.elem (text "physics_model") [] [] [writeRCon fmt02 [text "b"] (text "c", loneHinge), k])).map
      fun r => (r.1.constraints.map (·.2.ref), r.2)) = some ([.nothing], true) ∧
    ((writeRBody .wrap fmt02 sampleDate ⟨text "b", {}⟩).bind fun k => (loadPhysModel .wrap lenAxis (fun _ => 2) (fun _ _ => 0) sampleDate [] (.elem (text "physics_model") [] [] [k, writeRCon fmt02 [text "b"] (text "c", loneHinge)])).map
      fun r => (r.1.constraints.map (·.2.ref), r.2)) = some ([.body 0], true) := by
  constructor <;> decide +kernel

/-- **C184.** An element of another name gives an empty model. -/
theorem phys_model_other (ov : Ov) (len : V3 → ℚ) (vol : Solid → ℚ) (ball : ℚ → ℚ → ℚ) (now : DateTime) (nodes : List Text) (n : Node) (h : n.name ≠ text "physics_model") :
    loadPhysModel ov len vol ball now nodes n = some ({}, true) := if_pos h

example : GoodPhysModel .wrap (fun _ => 3 / 2) [text "n"] ⟨[⟨text "b", {}⟩, ⟨text "d", {}⟩], [(text "c", { ref := .body 1, tar := .node (text "n") })], [.elem (text "instance_physics_model") [] [] []]⟩ where
  name := by
    intro r hr
    rcases List.mem_cons.1 hr with rfl | hr
    · exact hplain _ (by decide +kernel)
    · rw [List.mem_singleton.1 hr]
      exact hplain _ (by decide +kernel)
  dynamic := by
    intro r hr
    rcases List.mem_cons.1 hr with rfl | hr
    · exact .inr rfl
    · rw [List.mem_singleton.1 hr]
      exact .inr rfl
  material := by
    intro r hr x hx
    rcases List.mem_cons.1 hr with rfl | hr
    · cases hx
    · rw [List.mem_singleton.1 hr] at hx
      cases hx
  shapes := by
    intro r hr s hs
    rcases List.mem_cons.1 hr with rfl | hr
    · cases hs
    · rw [List.mem_singleton.1 hr] at hs
      cases hs
  sid := by
    intro c hc
    rw [List.mem_singleton.1 hc]
    exact hplain _ (by decide +kernel)
  flags := by
    intro c hc
    rw [List.mem_singleton.1 hc]
    exact ⟨.inr rfl, .inl rfl⟩
  ends := by
    intro c hc
    rw [List.mem_singleton.1 hc]
    refine ⟨⟨text "d", rfl, hplain _ (by decide +kernel), fun j hj => ?_⟩, hplain _ (by decide +kernel), List.mem_singleton.2 rfl, by decide +kernel⟩
    have : j = 0 := by omega
    subst this
    decide +kernel
  instances := by
    intro k hk
    rw [List.mem_singleton.1 hk]
    rfl

end Verif.FArc
