import Verif.QuatAngleLemmas

/-! # Quaternions and angles: theorems (C79, C80) -/

namespace Verif.Geo

/-- C79: spherical interpolation. The result is a unit quaternion whose angles to both ends divide the angle between them as `t : 1 - t`; it starts and
ends at the ends. Missing: quaternions that are opposite or nearly the same, see `slerp_violated`. -/
theorem slerp_partial {a b : Quat} (ha : a.Unit) (hb : b.Unit) (h1 : -1 < a.dot b) (h2 : a.dot b ≤ 1 - 1 / 10000) (t : ℝ) :
    ∃ r, a.slerp b t = some r ∧ r.Unit ∧ r.dot a = Real.cos (t * Real.arccos (a.dot b)) ∧ r.dot b = Real.cos ((1 - t) * Real.arccos (a.dot b)) ∧
      (t = 0 → r = a) ∧ (t = 1 → r = b) := by
  obtain ⟨hs, hc, he⟩ := slerp_eq (t := t) ha hb h1 h2
  obtain ⟨hu, d1, d2⟩ := slerpRaw_unit (t := t) ha hb hc hs
  refine ⟨_, he, hu, d1, d2, ?_, ?_⟩
  · rintro rfl
    simp [slerpRaw, div_self hs]
  · rintro rfl
    simp [slerpRaw, div_self hs]

/-- C79: between opposite quaternions there is a division by zero; between nearly equal ones, the first is given even at the end. -/
theorem slerp_violated : (∃ a b : Quat, a.Unit ∧ b.Unit ∧ a.slerp b (1 / 2) = none) ∧ ∃ a b : Quat, a.Unit ∧ b.Unit ∧ a ≠ b ∧ a.slerp b 1 = some a := by
  constructor
  · refine ⟨⟨0, 0, 0, 1⟩, ⟨0, 0, 0, -1⟩, by norm_num [Quat.Unit], by norm_num [Quat.Unit], ?_⟩
    have hn : equivalent (-1 : ℝ) 1 = false := by
      rw [Bool.eq_false_iff, Ne, equivalent_true, tolerance, abs_lt]; norm_num
    have hp : ¬ Real.pi < 0 := not_lt.mpr Real.pi_pos.le
    simp [Quat.slerp, hn, hp]
  · refine ⟨⟨0, 0, 0, 1⟩, ⟨2000 / 1000001, 0, 0, 999999 / 1000001⟩, by norm_num [Quat.Unit], by norm_num [Quat.Unit], by norm_num, ?_⟩
    have hn : equivalent (999999 / 1000001 : ℝ) 1 = true := by rw [equivalent_true, tolerance, abs_lt]; norm_num
    simp [Quat.slerp, hn]

/-- C80: axis and angle of a unit quaternion are those of its rotation: the axis is a unit vector, the angle lies between 0 and a full turn, and they make
the quaternion. Missing: quaternions nearly but not quite 1 or -1, see `angleAxis_violated`. -/
theorem angleAxis_partial {q : Quat} (h : q.Unit) (hs : 1 / 10000 ≤ √(1 - q.w * q.w) ∨ q.w = 1 ∨ q.w = -1) :
    q.toAngleAxis.1.lengthSquared = 1 ∧ 0 ≤ q.toAngleAxis.2 ∧ q.toAngleAxis.2 ≤ 2 * Real.pi ∧ Quat.ofAxisAngle q.toAngleAxis.1 q.toAngleAxis.2 = q := by
  have hw : -1 ≤ q.w ∧ q.w ≤ 1 := by
    rw [Quat.Unit] at h
    have hx := mul_self_nonneg q.x
    have hy := mul_self_nonneg q.y
    have hz := mul_self_nonneg q.z
    constructor <;> nlinarith
  have hc : Real.cos (Real.arccos q.w) = q.w := Real.cos_arccos hw.1 hw.2
  have hsin : Real.sin (Real.arccos q.w) = √(1 - q.w * q.w) := by rw [Real.sin_arccos, pow_two]
  have h2 : 2 * Real.arccos q.w / 2 = Real.arccos q.w := by ring
  have hss := cos_sin (Real.arccos q.w)
  rw [hc] at hss
  refine ⟨?_, ?_, ?_, ?_⟩
  · rw [Quat.toAngleAxis]; split
    · exact normalize_unit _
    · simp [V3.lengthSquared]
  · rw [Quat.toAngleAxis]
    have := Real.arccos_nonneg q.w
    split <;> dsimp only <;> linarith
  · rw [Quat.toAngleAxis]
    have := Real.arccos_le_pi q.w
    split <;> dsimp only <;> linarith
  · rw [Quat.toAngleAxis]
    simp only [h2]
    rcases hs with hs | hs
    · rw [← hsin] at hs
      have hpos : 0 < Real.sin (Real.arccos q.w) := by linarith
      have hne : equivalent (Real.sin (Real.arccos q.w)) 0 = false := by
        rw [Bool.eq_false_iff, Ne, equivalent_true, sub_zero, abs_of_pos hpos]
        exact not_lt.mpr hs
      rw [hne]
      have hu : (⟨q.x / Real.sin (Real.arccos q.w), q.y / Real.sin (Real.arccos q.w), q.z / Real.sin (Real.arccos q.w)⟩ : V3 ℝ).lengthSquared = 1 := by
        rw [Quat.Unit] at h
        rw [V3.lengthSquared]
        field_simp
        linarith
      simp only [Bool.not_false, if_true]
      rw [normalize_unitAxis, unitAxis_of_unit hu]
      simp only [Quat.ofAxisAngle, h2, hc]
      ext <;> simp only <;> field_simp
    · have hz : Real.sin (Real.arccos q.w) = 0 := by
        apply mul_self_eq_zero.mp
        rcases hs with hs | hs <;> rw [hs] at hss <;> rw [hs] <;> linarith
      rw [hz, equivalent_refl]
      have hv : q.x * q.x + q.y * q.y + q.z * q.z = 0 := by
        rw [Quat.Unit] at h
        rcases hs with hs | hs <;> rw [hs] at h <;> linarith
      have h0 := lengthSquared_zero.mp (show V3.lengthSquared ⟨q.x, q.y, q.z⟩ = 0 from hv)
      simp only [V3.mk.injEq] at h0
      simp only [Bool.not_true, Bool.false_eq_true, if_false, Quat.ofAxisAngle, h2, hc, hz]
      ext <;> simp [h0.1, h0.2.1, h0.2.2]

/-- C80: for a small rotation the axis is lost. -/
theorem angleAxis_violated : ∃ q : Quat, q.Unit ∧ 0 < q.y ∧ q.toAngleAxis.1 = ⟨1, 0, 0⟩ := by
  refine ⟨⟨0, 200000 / 10000000001, 0, 9999999999 / 10000000001⟩, by norm_num [Quat.Unit], by norm_num, ?_⟩
  have : Real.sin (Real.arccos (9999999999 / 10000000001)) = 200000 / 10000000001 := by
    rw [Real.sin_arccos, show (1 - (9999999999 / 10000000001 : ℝ) ^ 2) = (200000 / 10000000001) ^ 2 by norm_num, Real.sqrt_sq (by norm_num)]
  have he : equivalent (200000 / 10000000001 : ℝ) 0 = true := by rw [equivalent_true, tolerance, abs_lt]; norm_num
  have h2 : 2 * Real.arccos (9999999999 / 10000000001) / 2 = Real.arccos (9999999999 / 10000000001) := by ring
  simp [Quat.toAngleAxis, h2, this, he]

/-- C80: the Euler angles of a unit quaternion give its rotation. Missing: rotations around X other than by quarter turns, the lower pole and the
neighbourhoods of both poles, see `toEuler_x_violated`, `toEuler_south_violated` and `toEuler_pole_violated`. -/
theorem toEuler_partial {q : Quat} (h : q.Unit)
    (hy : (|2 * (q.x * q.z + q.y * q.w)| < 1 - 1 / 10000 ∧ (q.x * q.w = q.y * q.z ∨ 2 * (q.x * q.x + q.y * q.y) = 1)) ∨ 2 * (q.x * q.z + q.y * q.w) = 1) :
    rotationXYZ q.toEuler = q.toMatrix := by
  have hr := toMatrix_rigid (unit_length h)
  have ho := ortho_of hr.x hr.y hr.z hr.xy hr.xz hr.yz (rigid_det3 hr)
  have hm := toMatrix_unit h
  have ht : (tolerance : ℝ) = 1 / 10000 := rfl
  rcases hy with ⟨hy, hx⟩ | hy
  · have hy' := abs_lt.mp hy
    have e : q.toEuler = ⟨atan2 (q.x * q.w - q.y * q.z) (1 - 2 * (q.x * q.x + q.y * q.y)), Real.arcsin (2 * (q.x * q.z + q.y * q.w)),
        atan2 (2 * (q.z * q.w - q.x * q.y)) (1 - 2 * (q.y * q.y + q.z * q.z))⟩ := by
      rw [Quat.toEuler]
      rw [if_neg (by rw [ht]; linarith), if_neg (by rw [ht]; linarith)]
    have hsy : Real.sin (Real.arcsin (2 * (q.x * q.z + q.y * q.w))) = q.toMatrix.m20 := by
      rw [Real.sin_arcsin (by linarith) (by linarith), hm]; simp only; ring
    have h20 : q.toMatrix.m20 = 2 * (q.x * q.z + q.y * q.w) := by rw [hm]; simp only; ring
    have hcy := cos_sin (Real.arcsin (2 * (q.x * q.z + q.y * q.w)))
    rw [hsy] at hcy
    have hpos : 0 < Real.cos (Real.arcsin (2 * (q.x * q.z + q.y * q.w))) := by
      rw [Real.cos_arcsin]
      apply Real.sqrt_pos.mpr
      nlinarith
    generalize hc : Real.cos (Real.arcsin (2 * (q.x * q.z + q.y * q.w))) = c at hcy hpos
    have h00 : 1 - 2 * (q.y * q.y + q.z * q.z) = q.toMatrix.m00 := by rw [hm]
    have h10 : 2 * (q.z * q.w - q.x * q.y) = -q.toMatrix.m10 := by rw [hm]; simp only; ring
    have h22 : 1 - 2 * (q.x * q.x + q.y * q.y) = q.toMatrix.m22 := by rw [hm]
    have h21 : q.x * q.w - q.y * q.z = -q.toMatrix.m21 / 2 := by rw [hm]; simp only; ring
    obtain ⟨z1, z2⟩ := cos_atan2_scaled (x := q.toMatrix.m00) (y := -q.toMatrix.m10) hpos (by have := ho.row; linarith)
    have hx' : Real.cos (atan2 (-q.toMatrix.m21 / 2) q.toMatrix.m22) = q.toMatrix.m22 / c ∧
        Real.sin (atan2 (-q.toMatrix.m21 / 2) q.toMatrix.m22) = -q.toMatrix.m21 / c := by
      have hcol := ho.col
      rcases hx with hx | hx
      · have h0 : q.toMatrix.m21 = 0 := by linarith
        rw [h0] at hcol
        have := cos_atan2_scaled (x := q.toMatrix.m22) (y := -0 / 2) hpos (by linarith)
        rw [h0]
        refine ⟨this.1, ?_⟩
        rw [this.2]; simp
      · have h0 : q.toMatrix.m22 = 0 := by linarith
        rw [h0] at hcol
        have := cos_atan2_scaled (x := 0) (y := -q.toMatrix.m21 / 2) (show 0 < c / 2 by linarith) (by linarith)
        rw [h0]
        refine ⟨by rw [this.1]; simp, ?_⟩
        rw [this.2]; field_simp
    rw [e, h00, h10, h21, h22, rotationXYZ_eq (v := ⟨atan2 (-q.toMatrix.m21 / 2) q.toMatrix.m22, Real.arcsin (2 * (q.x * q.z + q.y * q.w)), atan2 (-q.toMatrix.m10) q.toMatrix.m00⟩) hx'.1 hx'.2 hc hsy z1 z2]
    exact ortho_angles ho hr.affine (by rw [hm]; exact ⟨rfl, rfl, rfl⟩) hpos hcy rfl rfl rfl rfl
  · exact toEuler_north h hy

/-- C80: with previous angles, the rotation is that of the angles found without them, and among those that differ from them by full turns, or by full turns
and the other way to make a rotation from three angles, they are the closest to the previous ones. -/
theorem toEuler_previous (q : Quat) (p : V3 ℝ) : ∃ (N : Nat) (r : V3 ℝ), (∀ n, N ≤ n → q.toEulerFrom n p = some r) ∧ rotationXYZ r = rotationXYZ q.toEuler ∧
    ∀ i j k : ℤ, distanceSq p r ≤ distanceSq p (turned q.toEuler i j k) ∧
      distanceSq p r ≤ distanceSq p (turned ⟨q.toEuler.x + Real.pi, Real.pi - q.toEuler.y, q.toEuler.z + Real.pi⟩ i j k) ∧
      rotationXYZ (turned ⟨q.toEuler.x + Real.pi, Real.pi - q.toEuler.y, q.toEuler.z + Real.pi⟩ i j k) = rotationXYZ q.toEuler := by
  obtain ⟨N, r, h1, h2, h3⟩ := patchEuler_spec p q.toEuler
  refine ⟨N, r, h1, h2, fun i j k => ⟨(h3 i j k).1, (h3 i j k).2, ?_⟩⟩
  rw [turned, rotationXYZ_turns ⟨q.toEuler.x + Real.pi, Real.pi - q.toEuler.y, q.toEuler.z + Real.pi⟩, rotationXYZ_alternative]

/-- C80: rotations around X are converted with the wrong angle: here the sine and cosine of the angle of the rotation are 24/25 and 7/25; those
of the angle found are in the relation 12 to 7. -/
theorem toEuler_x_violated : ∃ q : Quat, q.Unit ∧ q.toMatrix = M44.xRotation (7 / 25) (24 / 25) ∧ rotationXYZ q.toEuler ≠ q.toMatrix ∧
    7 * Real.sin q.toEuler.x = 12 * Real.cos q.toEuler.x := by
  have hu : (⟨3 / 5, 0, 0, 4 / 5⟩ : Quat).Unit := by norm_num [Quat.Unit]
  have e : (⟨3 / 5, 0, 0, 4 / 5⟩ : Quat).toEuler = ⟨atan2 (12 / 25) (7 / 25), 0, atan2 0 1⟩ := by
    rw [Quat.toEuler]
    norm_num [tolerance]
  have hm : (⟨3 / 5, 0, 0, 4 / 5⟩ : Quat).toMatrix = M44.xRotation (7 / 25) (24 / 25) := by
    rw [toMatrix_unit hu]
    ext <;> norm_num [M44.xRotation, M44.identity, M44.set]
  have hp : (0 : ℝ) < √193 / 25 := div_pos (Real.sqrt_pos.mpr (by norm_num)) (by norm_num)
  obtain ⟨x1, x2⟩ := cos_atan2_scaled (x := 7 / 25) (y := 12 / 25) hp (by
    have : √193 / 25 * (√193 / 25) = √193 * √193 / 625 := by ring
    rw [this, Real.mul_self_sqrt (by norm_num)]; norm_num)
  have h7 : 7 * Real.sin (atan2 (12 / 25) (7 / 25)) = 12 * Real.cos (atan2 (12 / 25) (7 / 25)) := by
    rw [x1, x2]; ring
  refine ⟨_, hu, hm, ?_, by rw [e]; exact h7⟩
  intro h
  rw [hm, e, rotationXYZ_eq (v := ⟨atan2 (12 / 25) (7 / 25), 0, atan2 0 1⟩) rfl rfl Real.cos_zero Real.sin_zero rfl rfl] at h
  have e1 := congrArg M44.m21 h
  have e2 := congrArg M44.m22 h
  norm_num [M44.xRotation] at e1 e2
  rw [e1, e2] at h7
  norm_num at h7

/-- C80: at the lower pole, the angle has the wrong sign. -/
theorem toEuler_south_violated : ∃ q : Quat, q.Unit ∧ 2 * (q.x * q.z + q.y * q.w) = -1 ∧ rotationXYZ q.toEuler ≠ q.toMatrix := by
  have hk : √(1 / 2 : ℝ) * √(1 / 2) = 1 / 2 := Real.mul_self_sqrt (by norm_num)
  have hp : 0 < √(1 / 2 : ℝ) := Real.sqrt_pos.mpr (by norm_num)
  generalize √(1 / 2 : ℝ) = k at hk hp
  have hu : (⟨3 / 5 * k, -4 / 5 * k, -3 / 5 * k, 4 / 5 * k⟩ : Quat).Unit := by rw [Quat.Unit]; linear_combination 2 * hk
  have hy : 2 * (3 / 5 * k * (-3 / 5 * k) + -4 / 5 * k * (4 / 5 * k)) = -1 := by linear_combination -2 * hk
  refine ⟨⟨3 / 5 * k, -4 / 5 * k, -3 / 5 * k, 4 / 5 * k⟩, hu, hy, ?_⟩
  have e : (⟨3 / 5 * k, -4 / 5 * k, -3 / 5 * k, 4 / 5 * k⟩ : Quat).toEuler = ⟨-2 * atan2 (3 / 5 * k) (4 / 5 * k), -Real.pi / 2, 0⟩ := by
    rw [Quat.toEuler]
    simp only [hy]
    rw [if_neg (by rw [tolerance]; norm_num), if_pos (by rw [tolerance]; norm_num)]
  obtain ⟨x1, x2⟩ := cos_atan2_scaled (x := 4 / 5 * k) (y := 3 / 5 * k) hp (by ring)
  have s1 : Real.sin (-2 * atan2 (3 / 5 * k) (4 / 5 * k)) = -24 / 25 := by
    rw [neg_mul, Real.sin_neg, Real.sin_two_mul, x1, x2]
    field_simp
    norm_num
  intro h
  rw [e, rotationXYZ_eq (v := ⟨-2 * atan2 (3 / 5 * k) (4 / 5 * k), -Real.pi / 2, 0⟩) rfl s1 rfl rfl Real.cos_zero Real.sin_zero, toMatrix_unit hu] at h
  have := congrArg M44.m12 h
  simp only at this
  nlinarith

/-- C80: near the upper pole, the angle around Y is rounded. -/
theorem toEuler_pole_violated : ∃ q : Quat, q.Unit ∧ q.toMatrix.m20 < 1 ∧ (rotationXYZ q.toEuler).m20 = 1 := by
  have hu : (⟨0, 119 / 169, 0, 120 / 169⟩ : Quat).Unit := by norm_num [Quat.Unit]
  refine ⟨_, hu, by rw [toMatrix_unit hu]; norm_num, ?_⟩
  have e : (⟨0, 119 / 169, 0, 120 / 169⟩ : Quat).toEuler = ⟨2 * atan2 0 (120 / 169), Real.pi / 2, 0⟩ := by
    rw [Quat.toEuler]
    rw [if_pos (by rw [tolerance]; norm_num)]
  rw [e, rotationXYZ_eq (v := ⟨2 * atan2 0 (120 / 169), Real.pi / 2, 0⟩) rfl rfl Real.cos_pi_div_two Real.sin_pi_div_two Real.cos_zero Real.sin_zero]

/-- The hypotheses of the theorems: quaternions at an angle of 60 degrees, and one whose Euler angles are found. -/
example : (⟨1 / 2, 1 / 2, 1 / 2, 1 / 2⟩ : Quat).Unit ∧ (⟨0, 0, 0, 1⟩ : Quat).Unit ∧ (⟨1 / 2, 1 / 2, 1 / 2, 1 / 2⟩ : Quat).dot ⟨0, 0, 0, 1⟩ = 1 / 2 ∧
    1 / 10000 ≤ √(1 - (1 / 2 : ℝ) * (1 / 2)) ∧ 2 * ((1 / 2 : ℝ) * (1 / 2) + 1 / 2 * (1 / 2)) = 1 := by
  refine ⟨by norm_num [Quat.Unit], by norm_num [Quat.Unit], by norm_num [Quat.dot], ?_, by norm_num⟩
  apply Real.le_sqrt_of_sq_le
  norm_num

example : (⟨0, 3 / 5 * (3 / 5), 4 / 5, 3 / 5 * (4 / 5)⟩ : Quat).Unit ∧ |2 * ((0 : ℝ) * (4 / 5) + 3 / 5 * (3 / 5) * (3 / 5 * (4 / 5)))| < 1 - 1 / 10000 := by
  refine ⟨by norm_num [Quat.Unit], ?_⟩
  rw [abs_of_pos (by norm_num)]; norm_num

end Verif.Geo
