import Verif.GeoRotSpec
import Verif.GeoProps
import Mathlib.Tactic.LinearCombination
import Mathlib.Tactic.NormNum

/-! # Rotations: lemmas -/

namespace Verif.Geo

section Ring
variable {K : Type} [CommRing K]

theorem axisRotation_rigid {a : V3 K} {c s : K} (ha : a.lengthSquared = 1) (h : c * c + s * s = 1) : Rigid (M44.axisRotation a c s) := by
  rw [V3.lengthSquared] at ha
  obtain ⟨x, y, z⟩ := a
  simp only at ha
  refine ⟨by simp [M44.Affine, M44.axisRotation], ?_, ?_, ?_, ?_, ?_, ?_, ?_⟩ <;>
    simp only [M44.axisRotation, M44.determinant, det3x3, det2x2]
  all_goals grind

theorem axisRotation_rotated {a : V3 K} (c s : K) (ha : a.lengthSquared = 1) (p : V3 K) : (M44.axisRotation a c s).transformCoordinate p = rotated a c s p := by
  rw [V3.lengthSquared] at ha
  obtain ⟨x, y, z⟩ := a
  simp only at ha
  simp only [M44.axisRotation, M44.transformCoordinate, rotated, V3.add, V3.smul, V3.cross, V3.dot, V3.mk.injEq]
  refine ⟨?_, ?_, ?_⟩ <;> grind

theorem axisRotation_mul {a : V3 K} {c s c' s' : K} (ha : a.lengthSquared = 1) :
    (M44.axisRotation a c s).mul (M44.axisRotation a c' s') = M44.axisRotation a (c * c' - s * s') (s * c' + c * s') := by
  rw [V3.lengthSquared] at ha
  obtain ⟨x, y, z⟩ := a
  simp only at ha
  ext <;> simp only [M44.axisRotation, M44.mul] <;> grind

theorem axisRotation_x (c s : K) : M44.axisRotation ⟨1, 0, 0⟩ c s = M44.xRotation c s := by
  ext <;> simp [M44.axisRotation, M44.xRotation, M44.identity, M44.set]

theorem axisRotation_y (c s : K) : M44.axisRotation ⟨0, 1, 0⟩ c s = M44.yRotation c s := by
  ext <;> simp [M44.axisRotation, M44.yRotation, M44.identity, M44.set]

theorem axisRotation_z (c s : K) : M44.axisRotation ⟨0, 0, 1⟩ c s = M44.zRotation c s := by
  ext <;> simp [M44.axisRotation, M44.zRotation, M44.identity, M44.set]

theorem rigid_identity : Rigid (M44.identity : M44 K) := by
  constructor <;> simp [M44.Affine, M44.identity, M44.set, M44.determinant, det3x3, det2x2]

theorem rigid_mul {a b : M44 K} (ha : Rigid a) (hb : Rigid b) : Rigid (a.mul b) := by
  obtain ⟨⟨a1, a2, a3, a4⟩, x, y, z, xy, xz, yz, d⟩ := ha
  obtain ⟨⟨b1, b2, b3, b4⟩, x', y', z', xy', xz', yz', d'⟩ := hb
  refine ⟨(transform_product (a := a) (b := b) ⟨b1, b2, b3, b4⟩ ⟨0, 0, 0⟩).2.2.2.2 ⟨a1, a2, a3, a4⟩, ?_, ?_, ?_, ?_, ?_, ?_, ?_⟩
  · simp only [M44.mul, b1, mul_zero, add_zero]
    linear_combination b.m00 * b.m00 * x + b.m01 * b.m01 * y + b.m02 * b.m02 * z + 2 * b.m00 * b.m01 * xy + 2 * b.m00 * b.m02 * xz + 2 * b.m01 * b.m02 * yz + x'
  · simp only [M44.mul, b2, mul_zero, add_zero]
    linear_combination b.m10 * b.m10 * x + b.m11 * b.m11 * y + b.m12 * b.m12 * z + 2 * b.m10 * b.m11 * xy + 2 * b.m10 * b.m12 * xz + 2 * b.m11 * b.m12 * yz + y'
  · simp only [M44.mul, b3, mul_zero, add_zero]
    linear_combination b.m20 * b.m20 * x + b.m21 * b.m21 * y + b.m22 * b.m22 * z + 2 * b.m20 * b.m21 * xy + 2 * b.m20 * b.m22 * xz + 2 * b.m21 * b.m22 * yz + z'
  · simp only [M44.mul, b1, b2, mul_zero, add_zero]
    linear_combination b.m00 * b.m10 * x + b.m01 * b.m11 * y + b.m02 * b.m12 * z + (b.m00 * b.m11 + b.m01 * b.m10) * xy + (b.m00 * b.m12 + b.m02 * b.m10) * xz +
      (b.m01 * b.m12 + b.m02 * b.m11) * yz + xy'
  · simp only [M44.mul, b1, b3, mul_zero, add_zero]
    linear_combination b.m00 * b.m20 * x + b.m01 * b.m21 * y + b.m02 * b.m22 * z + (b.m00 * b.m21 + b.m01 * b.m20) * xy + (b.m00 * b.m22 + b.m02 * b.m20) * xz +
      (b.m01 * b.m22 + b.m02 * b.m21) * yz + xz'
  · simp only [M44.mul, b2, b3, mul_zero, add_zero]
    linear_combination b.m10 * b.m20 * x + b.m11 * b.m21 * y + b.m12 * b.m22 * z + (b.m10 * b.m21 + b.m11 * b.m20) * xy + (b.m10 * b.m22 + b.m12 * b.m20) * xz +
      (b.m11 * b.m22 + b.m12 * b.m21) * yz + yz'
  · rw [(matrix_algebra a b b).2.2.2.2.2.1, d, d', one_mul]

end Ring

theorem equivalent_true {a b : ℝ} : equivalent a b = true ↔ |a - b| < tolerance := by
  rw [equivalent, abs_lt]
  simp
  constructor
  · rintro ⟨h1, h2⟩; exact ⟨by linarith, h1⟩
  · rintro ⟨h1, h2⟩; exact ⟨h2, by linarith⟩

theorem equivalent_refl (a : ℝ) : equivalent a a = true := by
  rw [equivalent_true, sub_self, abs_zero]; exact tolerance_pos

theorem cos_sin (t : ℝ) : Real.cos t * Real.cos t + Real.sin t * Real.sin t = 1 := by
  have := Real.cos_sq_add_sin_sq t
  rw [pow_two, pow_two] at this
  exact this

theorem length_sq (a : V3 ℝ) : a.length * a.length = a.lengthSquared := by
  rw [V3.length, V3.lengthSquared, Real.mul_self_sqrt]
  have := mul_self_nonneg a.x
  have := mul_self_nonneg a.y
  have := mul_self_nonneg a.z
  linarith

theorem length_nonneg (a : V3 ℝ) : 0 ≤ a.length := Real.sqrt_nonneg _

theorem length_pos {a : V3 ℝ} (h : a.lengthSquared ≠ 0) : 0 < a.length := by
  rcases lt_or_eq_of_le (length_nonneg a) with h' | h'
  · exact h'
  · exfalso; apply h; rw [← length_sq, ← h']; simp

theorem lengthSquared_nonneg (a : V3 ℝ) : 0 ≤ a.lengthSquared := by rw [← length_sq]; exact mul_self_nonneg _

theorem normalize_eq {a : V3 ℝ} (h : a.lengthSquared ≠ 0) : a.normalize = ⟨a.x / a.length, a.y / a.length, a.z / a.length⟩ := by
  rw [V3.normalize, if_pos (length_pos h)]

theorem normalize_zero {a : V3 ℝ} (h : a.lengthSquared = 0) : a.normalize = ⟨1, 0, 0⟩ := by
  have h1 : a.length = 0 := by
    have := length_sq a
    rw [h] at this
    exact mul_self_eq_zero.mp this
  rw [V3.normalize, if_neg (by rw [h1]; exact lt_irrefl _)]

theorem normalize_unit (a : V3 ℝ) : a.normalize.lengthSquared = 1 := by
  by_cases h : a.lengthSquared = 0
  · rw [normalize_zero h]; simp [V3.lengthSquared]
  · have hp := length_pos h
    rw [normalize_eq h, V3.lengthSquared]
    have := length_sq a
    rw [V3.lengthSquared] at this
    field_simp
    linarith

theorem cos_atan2 {x y : ℝ} (h : x * x + y * y = 1) : Real.cos (atan2 y x) = x ∧ Real.sin (atan2 y x) = y := by
  have hn : ‖(⟨x, y⟩ : ℂ)‖ = 1 := by
    rw [Complex.norm_def, Complex.normSq_mk, h, Real.sqrt_one]
  have h0 : (⟨x, y⟩ : ℂ) ≠ 0 := by
    intro e
    rw [e] at hn
    simp at hn
  constructor
  · rw [atan2, Complex.cos_arg h0, hn]; simp
  · rw [atan2, Complex.sin_arg, hn]; simp

end Verif.Geo
