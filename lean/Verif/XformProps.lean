import Verif.XformLemmas
import Verif.SceneProps

/-! # C85: transforms of scene nodes -/

namespace Verif.FXform

open Verif.Geo

/-- C85: the matrix of a node applies its transforms one after the other, the last one first; on points as well, for all types of transforms other
than arbitrary matrices, and for affine matrices. -/
theorem node_matrix (ts : List Transform) :
    (∀ q, (toMatrix ts).transform4 q = applyAll ts q) ∧
    ((∀ t ∈ ts, ∀ m, t.value = .matrix m → m.Affine) → ∀ p, (toMatrix ts).transformCoordinate p = movePoint ts p) :=
  ⟨toMatrix_apply ts, fun h p => toMatrix_point (fun t ht => value_affine t.value (h t ht)) p⟩

/-- A scale, then a translation: the list has the translation first. -/
example : movePoint [⟨[], .translation ⟨1, 2, 3⟩⟩, ⟨[], .scale ⟨2, 2, 2⟩⟩] ⟨1, 1, 1⟩ = ⟨3, 4, 5⟩ := by
  simp [movePoint, Value.toMatrix, M44.scale, M44.translation, M44.identity, M44.set, M44.transformCoordinate]
  norm_num

/-- C85: `AddTransform` puts the new transform at the given place, or at the end for greater indices, and keeps the others in order; a new transform
changes nothing until it gets a value, whatever its type. -/
theorem add_transform (ts : List Transform) (k : Kind) (i : Nat) :
    addTransform ts k i = ts.insertIdx (min i ts.length) (create k) ∧ (create k).value.kind = k ∧
      (create k).value.toMatrix = .identity ∧ toMatrix (addTransform ts k i) = toMatrix ts := by
  have e : addTransform ts k i = ts.take (min i ts.length) ++ create k :: ts.drop (min i ts.length) := by
    rw [addTransform]
    split
    · rw [Nat.min_eq_right (by omega)]; simp
    · rw [Nat.min_eq_left (by omega)]
  have hid : (create k).value.toMatrix = .identity := by
    cases k with
    | translation => ext <;> simp [create, Value.toMatrix, M44.translation, M44.identity, M44.set]
    | rotation =>
      have := (axis_rotation_partial (a := ⟨1, 0, 0⟩) (Or.inl (by simp [V3.lengthSquared])) 0 0 ⟨0, 0, 0⟩).2.2.2.2
      simpa [create, Value.toMatrix, degToRad] using this
    | scale => ext <;> simp [create, Value.toMatrix, M44.scale, M44.identity, M44.set]
    | skew =>
      simp only [create, Value.toMatrix, skew_matrix]
      ext <;> simp [degToRad, M44.identity, M44.set]
    | matrix => rfl
    | lookAt =>
      have hl : ((⟨0, 0, -1⟩ : V3 ℝ).sub ⟨0, 0, 0⟩) = ⟨0, 0, -1⟩ := by simp [V3.sub]
      have hn : (⟨0, 0, -1⟩ : V3 ℝ).normalize = ⟨0, 0, -1⟩ := by simp [V3.normalize, V3.length]
      have hn' : (⟨1, 0, 0⟩ : V3 ℝ).normalize = ⟨1, 0, 0⟩ := by simp [V3.normalize, V3.length]
      have hs : sideways (⟨0, 0, -1⟩ : V3 ℝ) ⟨0, 1, 0⟩ = ⟨1, 0, 0⟩ := by
        have h1 : equivalent3 (⟨0, 0, -1⟩ : V3 ℝ) ⟨0, 1, 0⟩ = false := by
          simp [equivalent3, equivalent, tolerance]; norm_num
        have h2 : equivalent3 (⟨0, 0, -1⟩ : V3 ℝ) (V3.neg ⟨0, 1, 0⟩) = false := by
          simp [equivalent3, equivalent, tolerance, V3.neg]; norm_num
        rw [sideways, h1, h2]
        simp [V3.cross, hn']
      simp only [create, Value.toMatrix, lookAtMatrix, hl, hn, hs]
      ext <;> simp [V3.cross, M44.identity, M44.set]
  refine ⟨?_, by cases k <;> rfl, hid, ?_⟩
  · rw [e, insertIdx_take_drop _ _ _ (by omega)]
  · rw [e, toMatrix_append, toMatrix_cons, hid, (matrix_algebra _ .identity .identity).2.2.1, ← toMatrix_append, List.take_append_drop]

example : (addTransform [⟨[65], .scale ⟨2, 2, 2⟩⟩, ⟨[66], .scale ⟨3, 3, 3⟩⟩] .rotation 1).map (·.sid) = [[65], [], [66]] := rfl

/-- C85: in every scene graph a program can build, `CalculateWorldTransform` of a live node ends, whatever the transforms are; it applies the transforms
of the node, then those of its first parent, and so on up to a node without parents. -/
theorem world_transform {w : FScene.World} (h : FScene.Reach w) (tf : Nat → List Transform) {x : Nat} (hx : (w.nodes x).isSome) :
    ∃ m l, Chain w l x ∧ (∃ N, ∀ n ≥ N, worldTransform w tf n x = some m) ∧ m = toMatrix (l.flatMap tf) ∧ ∀ q, m.transform4 q = applyAll (l.flatMap tf) q := by
  obtain ⟨m, l, h1, h2, h3⟩ := world_ends (FScene.reach_good h) tf x hx
  exact ⟨m, l, h1, h3, h2, fun q => by rw [h2, toMatrix_apply]⟩

/-- A reachable scene graph where node 3 has two parents, the first of which is node 1. -/
example : ∃ w, FScene.Reach w ∧ (w.nodes 3).isSome ∧ Chain w [1, 3] 3 := by
  obtain ⟨w, h, h1, h2, h3⟩ := FScene.sample_reach
  exact ⟨w, h, by simp [h3], .step (l := [1]) h3 rfl (.root h1 rfl)⟩

/-- C85: the world transform of a node below another one is that of its first parent times its own matrix; without parents, it is its own matrix. -/
theorem world_step {w : FScene.World} {tf : Nat → List Transform} {n x : Nat} {a : FScene.Node} {m : M44 ℝ} (ha : w.nodes x = some a)
    (hw : worldTransform w tf (n + 1) x = some m) :
    (a.parents = [] → m = toMatrix (tf x)) ∧
      ∀ p ps, a.parents = p :: ps → ∃ mp, worldTransform w tf n p = some mp ∧ m = mp.mul (toMatrix (tf x)) := by
  simp only [worldTransform, ha] at hw
  refine ⟨fun hp => ?_, fun p ps hp => ?_⟩
  · rw [hp] at hw
    exact (Option.some.inj hw).symm
  · rw [hp] at hw
    simp only [Option.map_eq_some_iff] at hw
    obtain ⟨mp, h1, h2⟩ := hw
    exact ⟨mp, h1, h2.symm⟩

/-- C85: transforms that are exactly opposite are recognised by `IsInverse`, and they undo each other in either order. Missing: `IsInverse` compares with
a tolerance of 0.0001 and knows translations and rotations only, see `inverse_tolerance_violated`, `inverse_zero_violated` and `inverse_scale_violated`. -/
theorem inverse_partial {t u : Value} (h : Opposite t u) (hg : GoodAxis t) : t.isInverse u = true ∧ u.isInverse t = true ∧ Cancel t.toMatrix u.toMatrix := by
  cases h with
  | translation t =>
    refine ⟨?_, ?_, ?_, ?_⟩
    · rw [Value.isInverse, smul_neg_one]; exact equivalent3_refl _
    · rw [Value.isInverse, smul_neg_one, equivalent3_comm]
      simpa [V3.neg] using equivalent3_refl t
    · ext <;> simp [Value.toMatrix, M44.translation, M44.mul, M44.identity, M44.set, V3.neg]
    · ext <;> simp [Value.toMatrix, M44.translation, M44.mul, M44.identity, M44.set, V3.neg]
  | back a x =>
    refine ⟨?_, ?_, ?_⟩
    · simp [Value.isInverse, equivalent3_refl, equivalent_refl]
    · simp [Value.isInverse, equivalent3_refl, equivalent_refl]
    · simp only [Value.toMatrix, degToRad_neg]
      exact rotation_cancel hg.2 _
  | around a x =>
    refine ⟨?_, ?_, ?_⟩
    · simp [Value.isInverse, equivalent3_refl, equivalent_refl]
    · have : a.neg.neg = a := by simp [V3.neg]
      simp [Value.isInverse, equivalent3_refl, equivalent_refl, this]
    · simp only [Value.toMatrix, rotation_neg hg.1]
      exact rotation_cancel hg.2 _

example : Opposite (.rotation ⟨0, 3, 4⟩ 30) (.rotation (V3.neg ⟨0, 3, 4⟩) 30) ∧ GoodAxis (.rotation ⟨0, 3, 4⟩ 30) := by
  refine ⟨.around .., ?_, Or.inr ?_⟩ <;> norm_num [V3.lengthSquared]

/-- C85: `IsInverse` is symmetric, and holds for two translations or two rotations only. -/
theorem inverse_symmetric (t u : Value) : t.isInverse u = u.isInverse t ∧
    (t.isInverse u = true → t.kind = u.kind ∧ (t.kind = .translation ∨ t.kind = .rotation)) := by
  refine ⟨?_, ?_⟩
  · cases t <;> cases u <;> try rfl
    · simp only [Value.isInverse, smul_neg_one]
      exact equivalent3_neg ..
    · simp only [Value.isInverse]
      rename_i a x a' x'
      rw [equivalent3_comm a a', equivalent_neg x x', equivalent3_neg a a', equivalent_comm x x']
  · cases t <;> cases u <;> simp [Value.isInverse, Value.kind]

/-- C85: what is left of two translations `IsInverse` accepts, and of two rotations it accepts around the same axis: each coordinate of every point moves
by less than 0.0001; a rotation around the axis by less than 0.0001 degrees is left. -/
theorem inverse_near_partial :
    (∀ t t' p, (Value.translation t).isInverse (.translation t') = true →
      Near (((Value.translation t).toMatrix.mul (Value.translation t').toMatrix).transformCoordinate p) p) ∧
    ∀ a x x', GoodAxis (.rotation a x) → |x + x'| < 1 / 10000 → (Value.rotation a x).isInverse (.rotation a x') = true ∧
      (Value.rotation a x).toMatrix.mul (Value.rotation a x').toMatrix = (Value.rotation a (x + x')).toMatrix := by
  refine ⟨fun t t' p h => ?_, fun a x x' hg hx => ⟨?_, ?_⟩⟩
  · simp only [Value.isInverse, equivalent3, V3.smul, Bool.and_eq_true, equivalent_true, tolerance] at h
    obtain ⟨⟨h1, h2⟩, h3⟩ := h
    refine ⟨?_, ?_, ?_⟩
    · rw [← abs_neg] at h1
      refine lt_of_le_of_lt (le_of_eq (congrArg _ ?_)) h1
      simp [Value.toMatrix, M44.translation, M44.mul, M44.transformCoordinate]
    · rw [← abs_neg] at h2
      refine lt_of_le_of_lt (le_of_eq (congrArg _ ?_)) h2
      simp [Value.toMatrix, M44.translation, M44.mul, M44.transformCoordinate]
    · rw [← abs_neg] at h3
      refine lt_of_le_of_lt (le_of_eq (congrArg _ ?_)) h3
      simp [Value.toMatrix, M44.translation, M44.mul, M44.transformCoordinate]
  · have : equivalent (-x) x' = true := by
      rw [equivalent_true, ← abs_neg]
      refine lt_of_le_of_lt (le_of_eq (congrArg _ ?_)) (by rwa [tolerance])
      ring
    simp [Value.isInverse, equivalent3_refl, this]
  · simp only [Value.toMatrix, degToRad_add]
    exact (axis_rotation_partial hg.2 _ _ ⟨0, 0, 0⟩).2.2.2.1

/-- C85, violated: two translations are called opposite, but one after the other moves every point. -/
theorem inverse_tolerance_violated : ∃ t u : Value, t.isInverse u = true ∧ ∀ p, (t.toMatrix.mul u.toMatrix).transformCoordinate p ≠ p := by
  refine ⟨.translation ⟨1, 0, 0⟩, .translation ⟨-1 + 1 / 20000, 0, 0⟩, ?_, fun p hp => ?_⟩
  · simp [Value.isInverse, equivalent3, V3.smul, equivalent, tolerance]; norm_num
  · have := congrArg V3.x hp
    simp [Value.toMatrix, M44.translation, M44.mul, M44.transformCoordinate] at this

/-- C85, violated: a rotation around the zero vector by 90 degrees is called the opposite of itself, because the zero vector is its own opposite; it is
carried out around the X axis, twice. -/
theorem inverse_zero_violated : ∃ t : Value, t.isInverse t = true ∧ (t.toMatrix.mul t.toMatrix).transformCoordinate ⟨0, 1, 0⟩ = ⟨0, -1, 0⟩ := by
  refine ⟨.rotation ⟨0, 0, 0⟩ 90, ?_, ?_⟩
  · simp [Value.isInverse, V3.neg, equivalent3_refl, equivalent_refl]
  · have h0 : (⟨0, 0, 0⟩ : V3 ℝ).lengthSquared = 0 := by simp [V3.lengthSquared]
    have he : equivalent (⟨0, 0, 0⟩ : V3 ℝ).lengthSquared 1 = false := by
      rw [h0]; simp [equivalent, tolerance]; norm_num
    have hr : degToRad 90 = Real.pi / 2 := by rw [degToRad]; ring
    simp only [Value.toMatrix, axisRotationMatrix, he, hr, normalize_zero h0]
    simp [M44.axisRotation, M44.mul, M44.transformCoordinate]

/-- C85, violated: two scales that undo each other are not called opposite. -/
theorem inverse_scale_violated : ∃ t u : Value, Cancel t.toMatrix u.toMatrix ∧ t.isInverse u = false := by
  refine ⟨.scale ⟨2, 2, 2⟩, .scale ⟨1 / 2, 1 / 2, 1 / 2⟩, ⟨?_, ?_⟩, rfl⟩ <;>
    ext <;> simp [Value.toMatrix, M44.scale, M44.mul, M44.identity, M44.set]

/-- C85: skews. A point moves along the first axis, by its component along the second axis times the tangent of the angle. If the axes are
orthogonal, volumes are kept, skews with the same axes commute and add their tangents, and the opposite angle undoes the skew; if they are unit vectors as well,
the second axis is turned towards the first one by the angle. Missing: it is the first axis that should turn, see `skew_axis_violated`. -/
theorem skew_partial (r a : V3 ℝ) {x : ℝ} (hx : Real.cos (degToRad x) ≠ 0) (p : V3 ℝ) :
    (Value.skew r a x).toMatrix.transformCoordinate p = p.add (r.smul (Real.tan (degToRad x) * a.dot p)) ∧
    (r.dot a = 0 → (Value.skew r a x).toMatrix.determinant = 1 ∧ Cancel (Value.skew r a x).toMatrix (Value.skew r a (-x)).toMatrix ∧
      (∀ y z, Real.cos (degToRad y) ≠ 0 → Real.cos (degToRad z) ≠ 0 → Real.tan (degToRad z) = Real.tan (degToRad x) + Real.tan (degToRad y) →
        (Value.skew r a x).toMatrix.mul (Value.skew r a y).toMatrix = (Value.skew r a z).toMatrix) ∧
      (a.lengthSquared = 1 → ((Value.skew r a x).toMatrix.transformCoordinate a).smul (Real.cos (degToRad x)) =
        (a.smul (Real.cos (degToRad x))).add (r.smul (Real.sin (degToRad x))))) := by
  have key : ∀ s s' : ℝ, r.dot a = 0 → (M44.set (skewArray s r a)).mul (M44.set (skewArray s' r a)) = M44.set (skewArray (s + s') r a) := by
    intro s s' h
    simp only [V3.dot] at h
    simp only [skew_matrix, M44.mul, M44.mk.injEq]
    refine ⟨?_, ?_, ?_, ?_, ?_, ?_, ?_, ?_, ?_, ?_, ?_, ?_, ?_, ?_, ?_, ?_⟩ <;> grind
  have tneg : Real.tan (degToRad (-x)) = -Real.tan (degToRad x) := by rw [degToRad_neg, Real.tan_neg]
  have zero : M44.set (skewArray 0 r a) = .identity := by
    rw [skew_matrix]; ext <;> simp [M44.identity, M44.set]
  refine ⟨?_, fun h => ⟨?_, ⟨?_, ?_⟩, ?_, ?_⟩⟩
  · simp only [Value.toMatrix, skew_matrix, M44.transformCoordinate, V3.add, V3.smul, V3.dot, V3.mk.injEq]
    refine ⟨?_, ?_, ?_⟩ <;> ring
  · simp only [V3.dot] at h
    simp only [Value.toMatrix, skew_matrix, M44.determinant, det3x3, det2x2]
    grind
  · simp only [Value.toMatrix]
    rw [key _ _ h, tneg, add_neg_cancel, zero]
  · simp only [Value.toMatrix]
    rw [key _ _ h, tneg, neg_add_cancel, zero]
  · intro y z _ _ e
    simp only [Value.toMatrix]
    rw [key _ _ h, e]
  · intro ha
    simp only [V3.lengthSquared] at ha
    have ht : Real.tan (degToRad x) * Real.cos (degToRad x) = Real.sin (degToRad x) := Real.tan_mul_cos hx
    simp only [Value.toMatrix, skew_matrix, M44.transformCoordinate, V3.add, V3.smul, V3.mk.injEq]
    rw [← ht]
    refine ⟨?_, ?_, ?_⟩ <;> grind

example : Real.cos (degToRad 45) ≠ 0 ∧ V3.dot (⟨1, 0, 0⟩ : V3 ℝ) ⟨0, 1, 0⟩ = 0 ∧ V3.lengthSquared (⟨0, 1, 0⟩ : V3 ℝ) = 1 := by
  have : degToRad 45 = Real.pi / 4 := by rw [degToRad]; ring
  rw [this, Real.cos_pi_div_four]
  simp [V3.dot, V3.lengthSquared]

/-- C85, violated: with the X axis as the axis which is rotated, the Y axis as the other one and 45 degrees, the X axis stays where it is and the Y axis is
moved to (1, 1, 0). -/
theorem skew_axis_violated : (Value.skew ⟨1, 0, 0⟩ ⟨0, 1, 0⟩ 45).toMatrix.transformCoordinate ⟨1, 0, 0⟩ = ⟨1, 0, 0⟩ ∧
    (Value.skew ⟨1, 0, 0⟩ ⟨0, 1, 0⟩ 45).toMatrix.transformCoordinate ⟨0, 1, 0⟩ = ⟨1, 1, 0⟩ := by
  have : Real.tan (degToRad 45) = 1 := by
    rw [show degToRad 45 = Real.pi / 4 by rw [degToRad]; ring, Real.tan_pi_div_four]
  simp only [Value.toMatrix, skew_matrix, M44.transformCoordinate, this]
  simp

/-- C85: a clone has, after the transforms it had before, the transforms of the original, with the types and values, in the same order; so a clone made
from scratch has the same matrix. Missing: the sub ids, see `clone_sub_id_violated`. -/
theorem clone_transforms_partial (ts old : List Transform) :
    (cloneTransforms ts old).map (·.value) = old.map (·.value) ++ ts.map (·.value) ∧ toMatrix (cloneTransforms ts old) = (toMatrix old).mul (toMatrix ts) ∧
      toMatrix (cloneTransforms ts []) = toMatrix ts := by
  have key : ∀ us : List Transform, toMatrix (us.map fun t => ⟨[], t.value⟩) = toMatrix us := by
    intro us
    induction us with
    | nil => rfl
    | cons t us ih => rw [List.map_cons, toMatrix_cons, toMatrix_cons, ih]
  rw [cloneTransforms_eq, cloneTransforms_eq, List.nil_append, toMatrix_append, key]
  refine ⟨?_, rfl, rfl⟩
  rw [List.map_append, List.map_map]
  rfl

/-- C85, violated: the transforms of a clone have no sub ids. -/
theorem clone_sub_id_violated : ∃ ts : List Transform, (cloneTransforms ts []).map (·.sid) ≠ ts.map (·.sid) :=
  ⟨[⟨[116], .translation ⟨1, 0, 0⟩⟩], by simp [cloneTransforms_eq]⟩

end Verif.FXform
