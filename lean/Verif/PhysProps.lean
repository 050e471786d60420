import Verif.PhysLemmas
import Mathlib.Algebra.Order.Field.Rat
import Mathlib.Algebra.BigOperators.Ring.List

/-!
# C99 - C102: physics shapes, bodies and scenes
-/

namespace Verif.FPhys

open Verif.Geo (V3 Box Within)

/-! ## C99: the volume of a shape that is a mesh -/

section Mesh
variable {K : Type} [Field K] [LinearOrder K]

/-- C99, in part: the volume is the sum, over the sets of polygons of the mesh whose convex hull is asked for, of the volumes of the smallest boxes around their positions,
if in no direction the first position of a set is above all the others. -/
theorem mesh_volume_partial (big : K) (lib : Geometries K) (m m' : Mesh K) (hh : HullOf lib m m') (pss : List (List (V3 K)))
    (hs : List.Forall₂ (fun o ps => ∃ s, o = some s ∧ s.Gives ps) m'.sets pss) (h1 : ∀ ps ∈ pss, FirstInside ps ∧ ∀ p ∈ ps, Within big p) :
    ∃ vs, List.Forall₂ BoundingVolume pss vs ∧ ∃ N, ∀ n ≥ N, meshVolume n big lib (some (some m)) = some vs.sum := by
  obtain ⟨hn, N, hN⟩ := findHull_of hh
  obtain ⟨vs, hv, he⟩ := setsVolume_spec big m'.sets pss hs h1 0
  refine ⟨vs, hv, N, fun n hge => ?_⟩
  rw [zero_add] at he
  simp only [meshVolume]
  by_cases hc : m.hullOf = none
  · have : m = m' := by
      cases hh with
      | self _ => rfl
      | step h _ _ => rw [hc] at h; cases h
    subst this
    simp only [hc, if_true, he]
  · simp only [hc, if_false, hN n hge, he]

/-- C99: there is at most one volume of the smallest box around given positions. -/
theorem bounding_volume_unique (ps : List (V3 K)) (v w : K) (hv : BoundingVolume ps v) (hw : BoundingVolume ps w) : v = w := boundingVolume_unique ps v w hv hw

/-- C99: a geometry that is not a mesh, or the hull of one that is not there or is not a mesh, has the volume 1. -/
theorem other_volume (big : K) (lib : Geometries K) (n : Nat) (m : Mesh K) (id : Nat) (h : m.hullOf = some id) (hl : ∀ m', lib id ≠ some (some m')) :
    meshVolume n big lib (some none) = some 1 ∧ meshVolume (n + 1) big lib (some (some m)) = some 1 := by
  refine ⟨rfl, ?_⟩
  simp only [meshVolume, h, reduceCtorEq, if_false, findHull]
  cases hg : lib id with
  | none => rfl
  | some g =>
    cases g with
    | none => simp [findHull_none]
    | some m' => exact absurd hg (hl m')

/-- The positions of a box with edges 1, 2 and 3. -/
def boxPoints : List (V3 ℚ) := [⟨0, 0, 0⟩, ⟨1, 0, 0⟩, ⟨0, 2, 3⟩, ⟨1, 2, 3⟩]

/-- The source with these positions. -/
def boxSource : PosSource ℚ := ⟨3, [0, 0, 0, 1, 0, 0, 0, 2, 3, 1, 2, 3]⟩

example : boxSource.Gives boxPoints ∧ FirstInside boxPoints ∧ (∀ p ∈ boxPoints, Within 10 p) ∧
    HullOf (fun i => if i = 0 then some (some ⟨none, [some boxSource]⟩) else none) (⟨some 0, []⟩ : Mesh ℚ) ⟨none, [some boxSource]⟩ ∧
    meshVolume 5 (10 : ℚ) (fun i => if i = 0 then some (some ⟨none, [some boxSource]⟩) else none) (some (some ⟨some 0, []⟩)) = some 6 := by
  refine ⟨⟨rfl, by decide +kernel⟩, ?_, ?_, .step rfl (by simp) (.self rfl), by decide +kernel⟩
  · unfold boxPoints FirstInside; decide +kernel
  · unfold boxPoints Within; decide +kernel

/-- C99 fails: a mesh in the shape of one box, whose polygons are in two sets, counts twice; the same mesh has another volume if its positions are given in another order, and even a
negative one; two geometries that are the convex hulls of each other are looked up without end; and a geometry instance without its geometry, or polygons without positions, have no
defined volume. -/
theorem mesh_volume_violated :
    meshVolume 0 (10 : ℚ) (fun _ => none) (some (some ⟨none, [some boxSource]⟩)) = some 6 ∧
    meshVolume 0 (10 : ℚ) (fun _ => none) (some (some ⟨none, [some boxSource, some boxSource]⟩)) = some 12 ∧
    meshVolume 0 (10 : ℚ) (fun _ => none) (some (some ⟨none, [some ⟨3, [1, 2, 3, 0, 0, 0, 1, 0, 0, 0, 2, 0]⟩]⟩)) = some 0 ∧
    meshVolume 0 (10 : ℚ) (fun _ => none) (some (some ⟨none, [some ⟨3, [1, 2, 3, 0, 2, -1]⟩]⟩)) = some 0 ∧
    meshVolume 0 (10 : ℚ) (fun _ => none) (some (some ⟨none, [some ⟨3, [1, 2, 3]⟩]⟩)) = some (-1716) ∧
    (∀ n, meshVolume n (10 : ℚ) (fun i => some (some ⟨some (1 - i), []⟩)) (some (some ⟨some 0, []⟩)) = none) ∧
    meshVolume 0 (10 : ℚ) (fun _ => none) none = none ∧
    meshVolume 0 (10 : ℚ) (fun _ => none) (some (some ⟨none, [none]⟩)) = none := by
  refine ⟨by decide +kernel, by decide +kernel, by decide +kernel, by decide +kernel, by decide +kernel, fun n => ?_, rfl, rfl⟩
  have : ∀ n j, findHull (fun i => some (some (⟨some (1 - i), []⟩ : Mesh ℚ))) n (some ⟨some j, []⟩) = none := by
    intro n
    induction n with
    | zero => intro j; rfl
    | succ n ih => intro j; exact ih (1 - j)
  simp only [meshVolume, reduceCtorEq, if_false, this]

end Mesh

/-! ## C100: clones of shapes -/

section Shapes
variable {K T : Type} [Zero K]

/-- C100, in part: the clone of a shape has everything that the shape has exactly when the shape does not prefer its density, has no instance of a material, and is not a plane away from
the origin. -/
theorem shape_clone_partial (s : Shape K T) : (s.cloneInto .new).SameAs s ↔ s.Plain := shape_clone s

/-- C100: the clone has a material of its own if the shape has one. -/
theorem shape_clone_material (s : Shape K T) : (s.cloneInto .new).owns = (s.cloneInto .new).material.isSome ∧ (s.cloneInto .new).material = s.material := by
  obtain ⟨_, mat, _, _, _, _, _, _, _, _⟩ := s
  cases mat <;> simp [Shape.cloneInto, Shape.new, Material.cloneInto]

/-- C100: an analytical geometry is kept, with its values, by a clone of it, unless it is a plane away from the origin. -/
theorem analytical_clone_partial (a : Anal K) : a.cloneInto (createPAS a.kind) = a ↔ a.Kept := anal_clone a

/-- A shape with values. -/
def someShape : Shape ℚ Nat := ⟨false, some ⟨1, 2, 3⟩, false, none, some (.capsule ⟨1, 2⟩ 3), some 4, none, [7, 8], none, false⟩

example : someShape.Plain ∧ someShape.cloneInto .new = { someShape with owns := true } := by
  refine ⟨⟨rfl, by simp [someShape], ?_⟩, rfl⟩
  intro a h n d e
  subst e
  cases h

/-- C100 fails: a plane at the distance 5 from the origin becomes one through it; the material instance loses its material; the preference for the density is lost. -/
theorem shape_clone_violated :
    (Anal.plane ⟨0, 0, 1⟩ 5 : Anal ℚ).cloneInto (createPAS .plane) = .plane ⟨0, 0, 1⟩ 0 ∧
    (({ someShape with instMat := some (some 3) } : Shape ℚ Nat).cloneInto .new).instMat = some none ∧
    (({ someShape with densityMoreAccurate := true } : Shape ℚ Nat).cloneInto .new).densityMoreAccurate = false := ⟨rfl, rfl, rfl⟩

/-- C100, in part: after any number of `CreateGeometryInstance` and `CreateAnalyticalGeometry` calls on a new shape, it is not both; and it is what the last call says. -/
theorem one_geometry_partial (ops : List (GeomOp K)) :
    ((∀ o ∈ ops, ∀ a g, o ≠ .setAnalytical a ∧ o ≠ .setInstance g) →
      let s := ops.foldl geomStep (Shape.new : Shape K T)
      s.geometry = none ∨ s.anal = none) ∧
    (∀ e, let s := (ops ++ [GeomOp.createInstance e]).foldl geomStep (Shape.new : Shape K T)
      s.geometry = some (some e) ∧ s.anal = none) ∧
    ∀ k, let s := (ops ++ [GeomOp.createAnalytical k]).foldl geomStep (Shape.new : Shape K T)
      s.geometry = none ∧ ∃ a, s.anal = some a ∧ a.kind = k := by
  refine ⟨fun h => ?_, fun e => ?_, fun k => ?_⟩
  · have : ∀ s : Shape K T, (s.geometry = none ∨ s.anal = none) → (ops.foldl geomStep s).geometry = none ∨ (ops.foldl geomStep s).anal = none := by
      induction ops with
      | nil => exact fun s hs => hs
      | cons o ops ih =>
        intro s _
        refine ih (fun o' ho' => h o' (by simp [ho'])) (geomStep s o) ?_
        cases o with
        | createInstance e => exact .inr rfl
        | createAnalytical k => exact .inl rfl
        | setAnalytical a => exact absurd rfl (h _ (by simp) a none).1
        | setInstance g => exact absurd rfl (h _ (by simp) none g).2
    exact this _ (.inl rfl)
  · simp only [List.foldl_append, List.foldl_cons, List.foldl_nil]
    exact ⟨rfl, rfl⟩
  · simp only [List.foldl_append, List.foldl_cons, List.foldl_nil]
    refine ⟨rfl, _, rfl, ?_⟩
    cases k <;> rfl

example : ([.createAnalytical .sphere, .createInstance 4].foldl geomStep (Shape.new : Shape ℚ Nat)).geometry = some (some 4) := rfl

/-- C100 fails with the internal `SetAnalyticalGeometry`: the shape is both. -/
theorem one_geometry_violated :
    let s := [.createInstance 4, .setAnalytical (some (.sphere 1))].foldl geomStep (Shape.new : Shape ℚ Nat)
    s.geometry = some (some 4) ∧ s.anal = some (.sphere 1) := ⟨rfl, rfl⟩

end Shapes

/-! ## C101: the owners of materials -/

/-- C101: in everything that a program can reach, all calls are defined; they release the material that the program releases, or the own one of the holder that gets another one or is deleted,
and no other. -/
theorem materials_step {doc : List Nat} {w : Mats} (r : MatReach doc w) (op : MatOp) (l : MatLegal w op) : ∃ w', matStep w op = some w' ∧
    (∀ x, w'.alive x = true ↔ (w.alive x = true ∧ ¬ Gone w op x) ∨ Made op x) ∧ ∀ x, x ∈ w'.freed ↔ x ∈ w.freed ∨ Gone w op x := by
  obtain ⟨w', a, _, b, c⟩ := mat_step (matReach_inv r) op l
  exact ⟨w', a, b, c⟩

/-- C101: nothing refers to a released material; a material has at most one owner; what nobody owns is one that the program made itself, so that nothing is lost; and nothing is released
twice. -/
theorem materials_reach {doc : List Nat} {w : Mats} (r : MatReach doc w) :
    (∀ h k m, w.holders h = some k → k.ptr = some m → w.alive m = true) ∧
    (∀ h h' m, OwnsMat w h m → OwnsMat w h' m → h = h') ∧
    (∀ m, w.alive m = true → (m ∈ doc ↔ ¬ ∃ h, OwnsMat w h m)) ∧
    w.freed.Nodup ∧ ∀ m ∈ w.freed, w.alive m = false := by
  have i := matReach_inv r
  refine ⟨i.ptr, i.uniq, fun m hm => ⟨fun a ⟨h, b⟩ => i.notDoc h m b a, fun a => ?_⟩, i.once, i.dead⟩
  rcases i.kept m hm with b | b
  · exact b
  · exact absurd b a

/-- The start of everything. -/
def noMats : Mats := ⟨fun _ => false, [], fun _ => none⟩

/-- The last of some calls. -/
def runMats (w : Mats) (ops : List MatOp) : Option Mats := ops.foldlM matStep w

theorem one_own_reach : ∃ w, MatReach [5] w ∧ OwnsMat w 0 7 ∧ w.holders 1 = some ⟨some 5, false⟩ := by
  refine ⟨_, .step (op := .set 1 (some 5)) (.step (op := .newHolder 1) (.step (op := .addOwn 0 7) (.step (op := .newHolder 0)
    (.step (op := .newMaterial 5) .start ⟨rfl, List.not_mem_nil⟩ rfl) rfl rfl) ⟨rfl, rfl, List.not_mem_nil⟩ rfl) rfl rfl) ⟨rfl, ?_⟩ rfl, rfl, rfl⟩
  rintro m hm
  cases hm
  refine ⟨rfl, fun a => ?_⟩
  cases a

/-- C101 fails for a holder that is given the material that it owns: it refers to a released material; and the copy of a rigid body in the same document, which only refers to
the own material of the other one, loses it when that one is deleted. -/
theorem materials_violated :
    runMats noMats [.newHolder 0, .addOwn 0 7, .set 0 (some 7)] = none ∧
    ((runMats noMats [.newHolder 0, .addOwn 0 7, .newHolder 1, .set 1 (some 7), .deleteHolder 0]).map fun w => w.holders 1) = some (some ⟨none, false⟩) := ⟨rfl, rfl⟩

/-! ## C102: bodies, constraints, models and scenes -/

section Bodies
variable {K T : Type} [Zero K] [One K]

/-- C102, in part: the clone of a rigid body has everything that the body has exactly when there is no density, nothing is said about how exact density and inertia are, and the shapes
can be cloned. -/
theorem body_clone_partial (mats : Nat → Material K) (same : Bool) (p : Params K T) : (cloneBody mats same p).SameAs mats p ↔ p.Plain := body_clone mats same p

/-- A body with values. -/
def someBody : Params ℚ Nat := ⟨false, 3, 0, ⟨1, 2, 3⟩, ⟨4, 5, 6⟩, ⟨0, 1, 0⟩, 90, [someShape], some (.own ⟨1, 1, 1⟩), some (some 4), false, false⟩

example : someBody.Plain := by
  refine ⟨rfl, rfl, rfl, fun s hs => ?_⟩
  rw [show someBody.shapes = [someShape] from rfl, List.mem_singleton] at hs
  subst hs
  refine ⟨rfl, by simp [someShape], ?_⟩
  intro a h n d e
  subst e
  cases h

/-- C102 fails: a body with a density has a clone without one, and what is said about the inertia is lost; in the same document the clone only refers to the material that the body owns. -/
theorem body_clone_violated :
    (cloneBody (fun _ => .new) true ({ someBody with density := 5, densityMoreAccurate := true } : Params ℚ Nat)).density = 0 ∧
    (cloneBody (fun _ => .new) true ({ someBody with inertiaAccurate := true } : Params ℚ Nat)).inertiaAccurate = false ∧
    (cloneBody (fun _ => .new) true someBody).material = some (.borrowed ⟨1, 1, 1⟩) := ⟨rfl, rfl, rfl⟩

omit [Zero K] [One K] in
/-- C102: an instance that is given its rigid body has the values of it, and keeps its own shapes and materials. -/
theorem set_rigid_body (p b : Params K T) : p.setRigidBody b = { b with shapes := p.shapes, material := p.material, instMat := p.instMat } := rfl

/-- C102, in part: the clone of a constraint is the constraint exactly when that has no sub id. -/
theorem constraint_clone_partial (c : Constraint K T) : c.cloneInto .new = c ↔ c.sid = [] := by
  obtain ⟨sid, _, _, _, _, _, _, _, _, _, _, _, _, _, _, _, _, _, _⟩ := c
  simp [Constraint.cloneInto, Constraint.new, eq_comm]

/-- C102, in part: the clone of a physics model instance is defined exactly when there is no force field instance in it; then it has what the instance has, but for the target
nodes, if the bodies can be cloned. -/
theorem model_instance_clone_partial (mats : Nat → Material K) (m : ModelInst K T) :
    ((∃ c, cloneModelInst mats m = some c) ↔ m.NoForce) ∧ ∀ c, cloneModelInst mats m = some c → (∀ i ∈ m.insts, i.Plain) → m.SameAs mats c := by
  by_cases h : m.NoForce
  · obtain ⟨c, hc, hs⟩ := cloneModelInst_spec mats m h
    refine ⟨⟨fun _ => h, fun _ => ⟨c, hc⟩⟩, fun c' hc' hp => ?_⟩
    rw [hc] at hc'
    cases hc'
    exact hs hp
  · have := cloneModelInst_none mats m h
    simp [this, h]

/-- C102, in part: the clone of a physics scene is defined exactly when there is no force field instance in it or in its models; then it has the gravity, the time step and the models. -/
theorem scene_clone_partial (mats : Nat → Material K) (s : Scene K T) :
    ((∃ c, cloneScene mats s = some c) ↔ s.forces = [] ∧ ∀ m ∈ s.models, m.NoForce) ∧
    ∀ c, cloneScene mats s = some c → (∀ m ∈ s.models, ∀ i ∈ m.insts, i.Plain) →
      c.gravity = s.gravity ∧ c.timestep = s.timestep ∧ c.forces = s.forces ∧ List.Forall₂ (ModelInst.SameAs mats) s.models c.models := by
  unfold cloneScene
  by_cases h : ∀ m ∈ s.models, m.NoForce
  · obtain ⟨l, hl, hf⟩ := mapM_spec (cloneModelInst mats) (fun m c => (∀ i ∈ m.insts, i.Plain) → m.SameAs mats c) s.models fun m hm =>
      cloneModelInst_spec mats m (h m hm)
    rw [hl, Option.bind_some]
    by_cases hn : s.forces = []
    · simp only [hn, if_true, true_and]
      refine ⟨⟨fun _ => h, fun _ => ⟨_, rfl⟩⟩, ?_⟩
      rintro c hc hp
      cases hc
      refine ⟨rfl, rfl, rfl, ?_⟩
      show List.Forall₂ _ s.models l
      clear hl h
      generalize s.models = k at *
      induction hf with
      | nil => exact .nil
      | cons a b ih => exact .cons (a (hp _ (by simp))) (ih fun i hi => hp i (by simp [hi]))
    · simp [hn]
  · have h' := h
    push Not at h'
    obtain ⟨m, hm, hn⟩ := h'
    have := mapM_none (cloneModelInst mats) s.models m hm (cloneModelInst_none mats m hn)
    simp [this, h]

/-- C102, in part: a cloned physics model has clones of the bodies, of the constraints and of the instances, in order. -/
theorem model_clone_partial (mats : Nat → Material K) (fresh : Nat) (m : Model K T) (h : ∀ i ∈ m.instances, i.NoForce) : ∃ c, cloneModel mats fresh m = some c ∧
    c.bodies.map Prod.snd = m.bodies.map (fun b => cloneBody mats true b.2) ∧ c.bodies.map Prod.fst = (List.range m.bodies.length).map (fresh + ·) ∧
    c.constraints = m.constraints.map (fun k => { k with sid := [] }) ∧
    List.Forall₂ (fun i j => (∀ x ∈ i.insts, x.Plain) → i.SameAs mats j) m.instances c.instances := by
  obtain ⟨l, hl, hf⟩ := mapM_spec (cloneModelInst mats) (fun m c => (∀ i ∈ m.insts, i.Plain) → m.SameAs mats c) m.instances fun i hi =>
    cloneModelInst_spec mats i (h i hi)
  refine ⟨_, by simp only [cloneModel, hl, Option.map_some]; rfl, ?_, ?_, ?_, hf⟩
  · simp only [List.map_map]
    rw [show (Prod.snd ∘ fun b : (Nat × Params K T) × Nat => (fresh + b.2, cloneBody mats true b.1.2)) =
      (fun b => cloneBody mats true b.2) ∘ Prod.fst from rfl, ← List.map_map, List.zipIdx_map_fst]
  · simp only [List.map_map]
    rw [show (Prod.fst ∘ fun b : (Nat × Params K T) × Nat => (fresh + b.2, cloneBody mats true b.1.2)) = (fresh + ·) ∘ Prod.snd from rfl, ← List.map_map,
      List.zipIdx_map_snd, List.range_eq_range']
  · rfl

/-- C102 fails: the constraint in the clone of a model joins a body of the model, not of the clone; and force field instances make the clone of a model instance and of a scene
undefined. -/
theorem model_clone_violated :
    ((cloneModel (fun _ => .new) 10 (⟨[(0, someBody)], [{ (Constraint.new : Constraint ℚ Nat) with refBody := some 0 }], []⟩ : Model ℚ Nat)).map
      fun c => (c.bodies.map Prod.fst, c.constraints.map Constraint.refBody)) = some ([10], [some 0]) ∧
    (cloneModelInst (fun _ => .new) (⟨none, [.force (some 3)]⟩ : ModelInst ℚ Nat)).isNone = true ∧
    (cloneScene (fun _ => .new) (⟨⟨0, 0, -9⟩, 1, [], [some 3]⟩ : Scene ℚ Nat)).isNone = true := ⟨rfl, rfl, rfl⟩

end Bodies

section Mass
variable {K T : Type} [Field K] [DecidableEq K]

/-- C102: with the factor for the masses of its shapes, these add up to the mass of the body; the factor is not defined exactly when they add up to zero. -/
theorem mass_factor (p : Params K T) :
    (∀ f, massFactor p = some f → (p.shapes.map fun s => f * s.getMass).sum = p.mass) ∧
    (massFactor p = none ↔ (p.shapes.map Shape.getMass).sum = 0) := by
  have e : (p.shapes.map Shape.getMass).foldl (· + ·) 0 = (p.shapes.map Shape.getMass).sum := by
    rw [List.sum_eq_foldl]
  unfold massFactor
  simp only [e]
  by_cases h : (p.shapes.map Shape.getMass).sum = 0
  · simp [h]
  · simp only [h, if_false, Option.some.injEq, reduceCtorEq, and_true]
    rintro f rfl
    rw [List.sum_map_mul_left]
    exact div_mul_cancel₀ _ h

example : massFactor someBody = some (3 / 4) := by decide +kernel

end Mass

end Verif.FPhys
