import Verif.GeoDecomp
import Verif.GeoLook

/-!
# Rotations: theorems (C42, C76, C77)

`cos` and `sin` are those of the real numbers; angles are in radians.
-/

namespace Verif.Geo

/-- C42: rotation around an axis. It is a rotation in the sense of Rodrigues' formula, around the unit vector in the direction of the axis; it is
orthonormal with determinant 1, leaves the axis fixed, and rotations around the same axis compose by adding their angles. Missing: axes whose
squared length differs from 1 by less than 0.0001 are used as they are, see `axis_nearly_unit_violated`. -/
theorem axis_rotation_partial {a : V3 ℝ} (h : a.lengthSquared = 1 ∨ 1 / 10000 ≤ |a.lengthSquared - 1|) (t t' : ℝ) (p : V3 ℝ) :
    Rigid (axisRotationMatrix a t) ∧ (axisRotationMatrix a t).transformCoordinate p = rotated (unitAxis a) (Real.cos t) (Real.sin t) p ∧
      (axisRotationMatrix a t).transformCoordinate a = a ∧ (axisRotationMatrix a t).mul (axisRotationMatrix a t') = axisRotationMatrix a (t + t') ∧
      axisRotationMatrix a 0 = .identity := by
  have hu := unitAxis_unit a
  have e : ∀ t, axisRotationMatrix a t = M44.axisRotation (unitAxis a) (Real.cos t) (Real.sin t) := by
    intro t
    rw [axisRotationMatrix]
    rcases h with h | h
    · rw [h, equivalent_refl, if_pos rfl, unitAxis_of_unit h]
    · rw [if_neg, normalize_unitAxis]
      rw [equivalent_true]
      exact not_lt.mpr h
  refine ⟨?_, ?_, ?_, ?_, ?_⟩
  · rw [e]; exact axisRotation_rigid hu (cos_sin t)
  · rw [e]; exact axisRotation_rotated _ _ hu p
  · rw [e, axisRotation_rotated _ _ hu]; exact rotated_axis a _ _
  · rw [e, e, e, axisRotation_mul hu, Real.cos_add, Real.sin_add]
  · rw [e, Real.cos_zero, Real.sin_zero]; exact axisRotation_zero hu

/-- C42: rotation around a unit axis. -/
theorem unit_axis_rotation {a : V3 ℝ} (h : a.lengthSquared = 1) (t t' : ℝ) (p : V3 ℝ) :
    Rigid (axisRotationMatrix a t) ∧ (axisRotationMatrix a t).transformCoordinate p = rotated a (Real.cos t) (Real.sin t) p ∧
      (axisRotationMatrix a t).transformCoordinate a = a ∧ (axisRotationMatrix a t).mul (axisRotationMatrix a t') = axisRotationMatrix a (t + t') := by
  have := axis_rotation_partial (Or.inl h) t t' p
  rw [unitAxis_of_unit h] at this
  exact ⟨this.1, this.2.1, this.2.2.1, this.2.2.2.1⟩

/-- C42: the rotations around X, Y and Z are the special cases. -/
theorem axis_special (t : ℝ) : axisRotationMatrix ⟨1, 0, 0⟩ t = xAxisRotationMatrix t ∧ axisRotationMatrix ⟨0, 1, 0⟩ t = yAxisRotationMatrix t ∧
    axisRotationMatrix ⟨0, 0, 1⟩ t = zAxisRotationMatrix t :=
  ⟨axisRotationMatrix_x t, axisRotationMatrix_y t, axisRotationMatrix_z t⟩

/-- C42: Euler rotations are orthonormal with determinant 1. -/
theorem euler_rigid (r : V3 ℝ) : Rigid (eulerRotationMatrix r) := by
  have hx : Rigid (xAxisRotationMatrix r.x) := by rw [← axisRotationMatrix_x]; exact (axis_rotation_partial (Or.inl (by simp [V3.lengthSquared])) _ 0 ⟨0, 0, 0⟩).1
  have hy : Rigid (yAxisRotationMatrix r.y) := by rw [← axisRotationMatrix_y]; exact (axis_rotation_partial (Or.inl (by simp [V3.lengthSquared])) _ 0 ⟨0, 0, 0⟩).1
  have hz : Rigid (zAxisRotationMatrix r.z) := by rw [← axisRotationMatrix_z]; exact (axis_rotation_partial (Or.inl (by simp [V3.lengthSquared])) _ 0 ⟨0, 0, 0⟩).1
  have h1 : Rigid (if equivalent r.x 0 then M44.identity else xAxisRotationMatrix r.x) := by split; exacts [rigid_identity, hx]
  rw [eulerRotationMatrix]
  generalize (if equivalent r.x 0 then M44.identity else xAxisRotationMatrix r.x) = T at h1
  have h2 : Rigid (if equivalent r.y 0 then T else T.mul (yAxisRotationMatrix r.y)) := by split; exacts [h1, rigid_mul h1 hy]
  generalize (if equivalent r.y 0 then T else T.mul (yAxisRotationMatrix r.y)) = T at h2
  split; exacts [h2, rigid_mul h2 hz]

/-- C42: Euler rotations are the rotation around Z, followed by the one around Y and the one around X. Missing: angles other than 0 below 0.0001, which
are left out, see `euler_small_violated`. -/
theorem euler_rotation_partial {r : V3 ℝ} (hx : r.x = 0 ∨ 1 / 10000 ≤ |r.x|) (hy : r.y = 0 ∨ 1 / 10000 ≤ |r.y|) (hz : r.z = 0 ∨ 1 / 10000 ≤ |r.z|) :
    eulerRotationMatrix r = ((xAxisRotationMatrix r.x).mul (yAxisRotationMatrix r.y)).mul (zAxisRotationMatrix r.z) := by
  have key : ∀ (x : ℝ), (x = 0 ∨ 1 / 10000 ≤ |x|) → ∀ (f : ℝ → M44 ℝ), f 0 = .identity → ∀ T : M44 ℝ, (if equivalent x 0 then T else T.mul (f x)) = T.mul (f x) := by
    intro x hx f hf T
    rcases hx with hx | hx
    · rw [hx, equivalent_refl, if_pos rfl, hf, (matrix_algebra T T T).2.1]
    · rw [if_neg]
      rw [equivalent_true, sub_zero]
      exact not_lt.mpr hx
  have hx' := key r.x hx xAxisRotationMatrix xAxisRotationMatrix_zero .identity
  rw [(matrix_algebra (xAxisRotationMatrix r.x) .identity .identity).2.2.1] at hx'
  rw [eulerRotationMatrix, hx', key r.y hy yAxisRotationMatrix yAxisRotationMatrix_zero]
  exact key r.z hz zAxisRotationMatrix zAxisRotationMatrix_zero _

/-- C42: translations and scales. -/
theorem translation_scale {K : Type} [CommRing K] (a b p : V3 K) : (M44.translation a).transformCoordinate p = p.add a ∧
    (M44.translation a).transformVector p = p ∧ (M44.translation a).mul (M44.translation b) = M44.translation (a.add b) ∧
    (M44.scale a).transformCoordinate p = ⟨a.x * p.x, a.y * p.y, a.z * p.z⟩ ∧ (M44.scale a).mul (M44.scale b) = M44.scale ⟨a.x * b.x, a.y * b.y, a.z * b.z⟩ ∧
    (M44.translation a).Affine ∧ (M44.scale a).Affine := by
  refine ⟨?_, ?_, ?_, ?_, ?_, ?_, ?_⟩
  · simp [M44.translation, M44.transformCoordinate, V3.add]
  · simp [M44.translation, M44.transformVector]
  · ext <;> simp [M44.translation, M44.mul, V3.add, add_comm]
  · simp [M44.scale, M44.transformCoordinate, M44.identity, M44.set, mul_comm]
  · ext <;> simp [M44.scale, M44.mul, M44.identity, M44.set]
  · simp [M44.translation, M44.Affine]
  · simp [M44.scale, M44.Affine, M44.identity, M44.set]

/-- C42: an axis that is nearly a unit vector is not normalised, and the result is no rotation. -/
theorem axis_nearly_unit_violated : ¬ Rigid (axisRotationMatrix ⟨100001 / 100000, 0, 0⟩ Real.pi) := by
  intro h
  have := h.x
  rw [axisRotationMatrix, if_pos (by rw [equivalent_true, V3.lengthSquared, tolerance, abs_lt]; norm_num), Real.cos_pi, Real.sin_pi] at this
  norm_num [M44.axisRotation] at this

/-- C42: small Euler angles are lost. -/
theorem euler_small_violated : eulerRotationMatrix ⟨1 / 20000, 0, 0⟩ = .identity ∧
    ((xAxisRotationMatrix (1 / 20000)).mul (yAxisRotationMatrix 0)).mul (zAxisRotationMatrix 0) ≠ .identity := by
  constructor
  · have h1 : equivalent (1 / 20000 : ℝ) 0 = true := by rw [equivalent_true, tolerance, abs_lt]; norm_num
    simp only [eulerRotationMatrix, h1, equivalent_refl, if_true]
  · intro h
    rw [yAxisRotationMatrix_zero, zAxisRotationMatrix_zero, (matrix_algebra _ M44.identity M44.identity).2.1, (matrix_algebra _ M44.identity M44.identity).2.1] at h
    have := congrArg M44.m12 h
    simp [xAxisRotationMatrix, M44.xRotation, M44.identity, M44.set] at this
    have hp : 0 < Real.sin 20000⁻¹ := Real.sin_pos_of_pos_of_lt_pi (by norm_num) (lt_of_lt_of_le (by norm_num) Real.two_le_pi)
    linarith

/-- C42: the rotations of the plane, documented as counter-clockwise, are clockwise: by a quarter turn, the point moved to (1, 0) goes to (0, -1). -/
theorem rotation33_clockwise_violated : (M33.rotation (0 : ℚ) 1).mul (M33.translation 1 0) = ⟨0, -1, 0, 1, 0, 0, 0, -1, 1⟩ := by decide +kernel

example : (⟨3 / 5, 0, 4 / 5⟩ : V3 ℝ).lengthSquared = 1 ∧ 1 / 10000 ≤ |(⟨2, 3, 4⟩ : V3 ℝ).lengthSquared - 1| := by
  constructor
  · norm_num [V3.lengthSquared]
  · rw [V3.lengthSquared, abs_of_pos] <;> norm_num

/-- C76: the parts a matrix decomposes into multiply to the matrix, the rotations in the order x, y, z; a matrix that turns left-handed into right-handed
systems has its scale negated. Missing: matrices close to the pole, see `decompose_pole_violated`. -/
theorem decompose_parts_partial {m : M44 ℝ} (h : Decomposable m) (hv : |m.m20 / √(m.m20 * m.m20 + m.m21 * m.m21 + m.m22 * m.m22)| < 1 - 1 / 10000 ∨
      |m.m20 / √(m.m20 * m.m20 + m.m21 * m.m21 + m.m22 * m.m22)| = 1) : composeXYZ (decompose m) = m ∧
    (decompose m).translation = ⟨m.m30, m.m31, m.m32⟩ ∧ 0 ≤ (decompose m).scale.x ∧ 0 ≤ (decompose m).scale.y ∧ 0 ≤ (decompose m).scale.z ∧
    ((decompose m).inverted = 1 ∨ (decompose m).inverted = -1) := by
  refine ⟨decompose_composeXYZ h.affine h.xy h.xz h.yz h.x h.y h.z hv, rfl, Real.sqrt_nonneg _, Real.sqrt_nonneg _, Real.sqrt_nonneg _, ?_⟩
  exact (sign_cases _).imp And.left And.left

/-- C76: if at most one of the angles is not 0, recomposing the parts of a matrix gives the matrix. -/
theorem recompose_decompose_partial {m : M44 ℝ} (h : Decomposable m) (hv : |m.m20 / √(m.m20 * m.m20 + m.m21 * m.m21 + m.m22 * m.m22)| < 1 - 1 / 10000 ∨
      |m.m20 / √(m.m20 * m.m20 + m.m21 * m.m21 + m.m22 * m.m22)| = 1)
    (hr : ((decompose m).rotation.x = 0 ∧ (decompose m).rotation.y = 0) ∨ ((decompose m).rotation.x = 0 ∧ (decompose m).rotation.z = 0) ∨
      ((decompose m).rotation.y = 0 ∧ (decompose m).rotation.z = 0)) : recompose (decompose m) = m := by
  rw [recompose_single hr]
  exact (decompose_parts_partial h hv).1

/-- C76: with two rotations the order matters, and recomposing does not give the matrix back. -/
theorem recompose_order_violated : ∃ m : M44 ℝ, m = (M44.xRotation (3 / 5) (4 / 5)).mul (M44.yRotation (3 / 5) (4 / 5)) ∧ Decomposable m ∧
    (recompose (decompose m)).m20 = 12 / 25 ∧ m.m20 = 4 / 5 := by
  have h2 : Rigid (M44.yRotation (3 / 5 : ℝ) (4 / 5)) := by
    rw [← axisRotation_y]; exact axisRotation_rigid (by simp [V3.lengthSquared]) (by norm_num)
  have h1 : Rigid (M44.xRotation (3 / 5 : ℝ) (4 / 5)) := by
    rw [← axisRotation_x]; exact axisRotation_rigid (by simp [V3.lengthSquared]) (by norm_num)
  refine ⟨_, rfl, (turned_decomposable (3 / 5) (4 / 5) (by norm_num)).1, ?_, by norm_num [M44.mul, M44.xRotation, M44.yRotation, M44.identity, M44.set]⟩
  rw [decompose_rigid (rigid_mul h1 h2), recompose_eq]
  have hc : Real.cos (Real.arcsin (4 / 5)) = 3 / 5 := by
    rw [Real.cos_arcsin, show (1 - (4 / 5 : ℝ) ^ 2) = (3 / 5) ^ 2 by norm_num, Real.sqrt_sq (by norm_num)]
  have hd : decomposeY (4 / 5) = (Real.arcsin (4 / 5), 3 / 5) := by
    rw [decomposeY, if_neg (by rw [tolerance]; norm_num), if_neg (by rw [tolerance]; norm_num), hc]
  have hr : decomposeRotation ((M44.xRotation (3 / 5) (4 / 5)).mul (M44.yRotation (3 / 5) (4 / 5))) ⟨1, 1, 1⟩ =
      ⟨atan2 (4 / 5) (3 / 5), Real.arcsin (4 / 5), atan2 0 1⟩ := by
    rw [decomposeRotation]
    norm_num [M44.mul, M44.xRotation, M44.yRotation, M44.identity, M44.set, hd]
  obtain ⟨x1, x2⟩ := cos_atan2 (x := 3 / 5) (y := 4 / 5) (by norm_num)
  obtain ⟨z1, z2⟩ := cos_atan2 (x := 1) (y := 0) (by norm_num)
  rw [hr]
  simp only [xAxisRotationMatrix, yAxisRotationMatrix, zAxisRotationMatrix, x1, x2, z1, z2, hc, Real.sin_arcsin (show (-1 : ℝ) ≤ 4 / 5 by norm_num) (by norm_num)]
  norm_num [M44.mul, M44.xRotation, M44.yRotation, M44.zRotation, M44.translation, M44.scale, M44.identity, M44.set, V3.smul]

/-- C76: close to the pole, the parts do not multiply to the matrix. -/
theorem decompose_pole_violated : ∃ m : M44 ℝ, m = M44.yRotation (2000 / 1000001) (999999 / 1000001) ∧ Decomposable m ∧
    (composeXYZ (decompose m)).m20 = 1 ∧ m.m20 = 999999 / 1000001 := by
  have h2 : Rigid (M44.yRotation (2000 / 1000001 : ℝ) (999999 / 1000001)) := by
    rw [← axisRotation_y]; exact axisRotation_rigid (by simp [V3.lengthSquared]) (by norm_num)
  refine ⟨_, rfl, decomposable_rigid h2, ?_, rfl⟩
  rw [decompose_rigid h2]
  have hd : decomposeY (999999 / 1000001) = (Real.pi / 2, 0) := by rw [decomposeY, if_pos (by rw [tolerance]; norm_num)]
  have hr : decomposeRotation (M44.yRotation (2000 / 1000001) (999999 / 1000001)) ⟨1, 1, 1⟩ = ⟨atan2 0 1, Real.pi / 2, 0⟩ := by
    rw [decomposeRotation]
    norm_num [M44.yRotation, M44.identity, M44.set, hd]
  obtain ⟨z1, z2⟩ := cos_atan2 (x := 1) (y := 0) (by norm_num)
  rw [hr, composeXYZ]
  simp only [xAxisRotationMatrix, yAxisRotationMatrix, zAxisRotationMatrix, z1, z2, Real.cos_pi_div_two, Real.sin_pi_div_two, Real.cos_zero, Real.sin_zero]
  norm_num [M44.mul, M44.xRotation, M44.yRotation, M44.zRotation, M44.translation, M44.scale, M44.identity, M44.set, V3.smul]

example : ∃ m : M44 ℝ, Decomposable m ∧ |m.m20 / √(m.m20 * m.m20 + m.m21 * m.m21 + m.m22 * m.m22)| < 1 - 1 / 10000 ∧ m.m20 ≠ 0 := by
  refine ⟨_, (turned_decomposable (3 / 5) (4 / 5) (by norm_num)).1, ?_, ?_⟩
  · norm_num [M44.mul, M44.xRotation, M44.yRotation, M44.identity, M44.set]
  · norm_num [M44.mul, M44.xRotation, M44.yRotation, M44.identity, M44.set]

/-- C77: the matrix of a viewer: it is rigid, puts the origin at the eye and the target on the negative Z axis, keeps the X axis orthogonal to the `up`
direction and the Y axis on its side. Missing: the viewing direction (nearly) parallel to `up`, see `lookAt_parallel_violated`. -/
theorem lookAt_partial {eye target up : V3 ℝ} (hn : (target.sub eye).cross up ≠ ⟨0, 0, 0⟩) (h1 : ¬ Near (unitAxis (target.sub eye)) up)
    (h2 : ¬ Near (unitAxis (target.sub eye)) up.neg) : Rigid (lookAtMatrix eye target up) ∧ (lookAtMatrix eye target up).transformCoordinate ⟨0, 0, 0⟩ = eye ∧
      (lookAtMatrix eye target up).transformCoordinate ⟨0, 0, -(target.sub eye).length⟩ = target ∧
      ((lookAtMatrix eye target up).transformVector ⟨1, 0, 0⟩).dot up = 0 ∧ 0 < ((lookAtMatrix eye target up).transformVector ⟨0, 1, 0⟩).dot up := by
  have hd0 : target.sub eye ≠ ⟨0, 0, 0⟩ := by intro e; apply hn; rw [e]; simp [V3.cross]
  have hp : 0 < (target.sub eye).length := length_pos (fun e => hd0 (lengthSquared_zero.mp e))
  have hdf := normalize_eq (fun e => hd0 (lengthSquared_zero.mp e))
  have hf := normalize_unit (target.sub eye)
  rw [← normalize_unitAxis] at h1 h2
  have hL : lookAtMatrix eye target up = (let f := (target.sub eye).normalize; let s := (f.cross up).normalize; let u := s.cross f;
      ⟨s.x, s.y, s.z, 0, u.x, u.y, u.z, 0, -f.x, -f.y, -f.z, 0, eye.x, eye.y, eye.z, 1⟩) := by
    rw [lookAtMatrix, sideways, if_pos]
    rw [Bool.and_eq_true, Bool.not_eq_true', Bool.not_eq_true', Bool.eq_false_iff, Bool.eq_false_iff, Ne, Ne, equivalent3_near, equivalent3_near]
    exact ⟨h1, h2⟩
  have hdl : target.sub eye = (target.sub eye).normalize.smul (target.sub eye).length := by
    rw [hdf]; ext <;> simp [V3.smul] <;> field_simp
  have hn' : ((target.sub eye).normalize.cross up).lengthSquared ≠ 0 := by
    intro e
    apply hn
    rw [lengthSquared_zero] at e
    rw [hdl]
    generalize (target.sub eye).normalize = f at e
    simp only [V3.cross, V3.smul, V3.mk.injEq] at e ⊢
    refine ⟨?_, ?_, ?_⟩ <;> grind
  have hs := normalize_unit ((target.sub eye).normalize.cross up)
  have hse := normalize_eq hn'
  have hm := length_pos hn'
  rw [hL]
  clear hL h1 h2 hn hdf hd0
  generalize (target.sub eye).normalize = f at *
  generalize hlen : (target.sub eye).length = l at *
  generalize (f.cross up).length = m at *
  have hsf : ((f.cross up).normalize).dot f = 0 := by
    rw [hse]; simp only [V3.dot, V3.cross]; field_simp; ring
  have hsu : ((f.cross up).normalize).dot up = 0 := by
    rw [hse]; simp only [V3.dot, V3.cross]; field_simp; ring
  refine ⟨lookAt_rigid hf hs hsf, ?_, ?_, ?_, ?_⟩
  · simp [M44.transformCoordinate]
  · have ex := congrArg V3.x hdl
    have ey := congrArg V3.y hdl
    have ez := congrArg V3.z hdl
    simp only [V3.sub, V3.smul] at ex ey ez
    simp only [M44.transformCoordinate]
    ext <;> simp <;> linarith
  · simpa [M44.transformVector] using hsu
  · have : (((f.cross up).normalize).cross f).dot up = (f.cross up).lengthSquared / m := by
      rw [hse]; simp only [V3.dot, V3.cross, V3.lengthSquared]; field_simp; ring
    have hpos : 0 < (f.cross up).lengthSquared / m := div_pos (lt_of_le_of_ne (lengthSquared_nonneg _) (Ne.symm hn')) hm
    rw [← this] at hpos
    simpa [M44.transformVector] using hpos

/-- C77: looking along X with `up` against it gives a singular matrix; looking along (3/5, 4/5, 0) with `up` the same gives axes that are not orthogonal. -/
theorem lookAt_parallel_violated : (lookAtMatrix ⟨0, 0, 0⟩ ⟨1, 0, 0⟩ ⟨-1, 0, 0⟩).determinant = 0 ∧
    ¬ Rigid (lookAtMatrix ⟨0, 0, 0⟩ ⟨3 / 5, 4 / 5, 0⟩ ⟨3 / 5, 4 / 5, 0⟩) := by
  have hf1 : ((⟨1, 0, 0⟩ : V3 ℝ).sub ⟨0, 0, 0⟩).normalize = ⟨1, 0, 0⟩ := by
    rw [normalize_unitAxis, unitAxis_of_unit] <;> norm_num [V3.sub, V3.lengthSquared]
  have hf2 : ((⟨3 / 5, 4 / 5, 0⟩ : V3 ℝ).sub ⟨0, 0, 0⟩).normalize = ⟨3 / 5, 4 / 5, 0⟩ := by
    rw [normalize_unitAxis, unitAxis_of_unit] <;> norm_num [V3.sub, V3.lengthSquared]
  have n1 : equivalent3 ⟨1, 0, 0⟩ (V3.neg ⟨-1, 0, 0⟩) = true := by rw [equivalent3_near]; norm_num [Near, V3.neg]
  have n2 : ¬ equivalent3 ⟨-1, 0, 0⟩ ⟨1, 0, 0⟩ = true := by rw [equivalent3_near]; norm_num [Near]
  have n3 : equivalent3 ⟨3 / 5, 4 / 5, 0⟩ ⟨3 / 5, 4 / 5, 0⟩ = true := by rw [equivalent3_near]; norm_num [Near]
  have n4 : ¬ equivalent3 ⟨3 / 5, 4 / 5, 0⟩ ⟨1, 0, 0⟩ = true := by rw [equivalent3_near]; norm_num [Near, abs_of_pos]
  constructor
  · have : sideways ⟨1, 0, 0⟩ ⟨-1, 0, 0⟩ = ⟨1, 0, 0⟩ := by simp [sideways, n1, n2]
    rw [lookAtMatrix, hf1, this]
    norm_num [V3.cross, M44.determinant, det3x3, det2x2]
  · intro h
    have : sideways ⟨3 / 5, 4 / 5, 0⟩ ⟨3 / 5, 4 / 5, 0⟩ = ⟨1, 0, 0⟩ := by simp [sideways, n3, n4]
    have h' := h.xz
    rw [lookAtMatrix, hf2, this] at h'
    norm_num at h'

example : ((⟨0, 0, -5⟩ : V3 ℝ).sub ⟨0, 0, 0⟩).cross ⟨0, 1, 0⟩ ≠ ⟨0, 0, 0⟩ ∧ ¬ Near (unitAxis ((⟨0, 0, -5⟩ : V3 ℝ).sub ⟨0, 0, 0⟩)) ⟨0, 1, 0⟩ ∧
    ¬ Near (unitAxis ((⟨0, 0, -5⟩ : V3 ℝ).sub ⟨0, 0, 0⟩)) (V3.neg ⟨0, 1, 0⟩) := by
  have e : ((⟨0, 0, -5⟩ : V3 ℝ).sub ⟨0, 0, 0⟩) = ⟨0, 0, -5⟩ := by simp [V3.sub]
  have e2 : unitAxis ⟨0, 0, -5⟩ = ⟨0, 0, -1⟩ := by
    rw [unitAxis, if_neg (by simp)]
    have : √(0 * 0 + 0 * 0 + -5 * -5 : ℝ) = 5 := by rw [show (0 * 0 + 0 * 0 + -5 * -5 : ℝ) = 5 ^ 2 by norm_num, Real.sqrt_sq (by norm_num)]
    simp only [this, V3.smul]
    norm_num
  rw [e, e2]
  norm_num [V3.cross, Near, V3.neg]

end Verif.Geo
