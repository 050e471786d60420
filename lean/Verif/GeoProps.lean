import Verif.GeoLemmas
import Mathlib.Algebra.Order.Field.Rat

/-!
# Matrices: theorems (C40, C41)

`toM` is the matrix in the sense of Mathlib, on which `*`, `ᵀ`, `det` and `⁻¹` have their usual meaning.
-/

namespace Verif.Geo

open Matrix

variable {K : Type}

section Ring
variable [CommRing K]

/-- C40: the operations on 4x4 matrices are those of mathematics. -/
theorem matrix_operations (a b : M44 K) (s : K) :
    (a.mul b).toM = a.toM * b.toM ∧ a.transposed.toM = a.toMᵀ ∧ a.determinant = a.toM.det ∧ (a.scalar s).toM = s • a.toM ∧ (M44.identity : M44 K).toM = 1 :=
  ⟨toM_mul a b, toM_transposed a, toM_determinant a, toM_scalar s a, toM_identity⟩

/-- C40: the laws of the algebra of matrices. -/
theorem matrix_algebra (a b c : M44 K) : (a.mul b).mul c = a.mul (b.mul c) ∧ a.mul .identity = a ∧ M44.identity.mul a = a ∧ a.transposed.transposed = a ∧
    (a.mul b).transposed = b.transposed.mul a.transposed ∧ (a.mul b).determinant = a.determinant * b.determinant ∧ (M44.identity : M44 K).determinant = 1 ∧
    a.transposed.determinant = a.determinant := by
  refine ⟨M44.toM_inj ?_, M44.toM_inj ?_, M44.toM_inj ?_, rfl, M44.toM_inj ?_, ?_, ?_, ?_⟩
  · simp only [toM_mul, Matrix.mul_assoc]
  · rw [toM_mul, toM_identity, Matrix.mul_one]
  · rw [toM_mul, toM_identity, Matrix.one_mul]
  · rw [toM_transposed, toM_mul, toM_mul, toM_transposed, toM_transposed, Matrix.transpose_mul]
  · rw [toM_determinant, toM_mul, Matrix.det_mul, toM_determinant, toM_determinant]
  · rw [toM_determinant, toM_identity, Matrix.det_one]
  · rw [toM_determinant, toM_transposed, Matrix.det_transpose, toM_determinant]

/-- C40: transformation of points, directions and columns with four components: the usual product; for points and directions, of affine matrices. -/
theorem transformation (a : M44 K) (p : V3 K) (q : V4 K) : (a.transform4 q).toV = a.toM *ᵥ q.toV ∧
    (a.Affine → (a.transformCoordinate p).point = a.toM *ᵥ p.point ∧ (a.transformVector p).direction = a.toM *ᵥ p.direction) := by
  refine ⟨?_, ?_⟩
  · ext i; fin_cases i <;> simp [M44.transform4, V4.toV, M44.toM, Matrix.mulVec, dotProduct, Fin.sum_univ_four]
  · rintro ⟨h1, h2, h3, h4⟩
    constructor
    · ext i; fin_cases i <;> simp [M44.transformCoordinate, V3.point, M44.toM, Matrix.mulVec, dotProduct, Fin.sum_univ_four, h1, h2, h3, h4]
    · ext i; fin_cases i <;> simp [M44.transformVector, V3.direction, M44.toM, Matrix.mulVec, dotProduct, Fin.sum_univ_four, h1, h2, h3, h4]

/-- C40: a product transforms like its factors one after the other; products and the identity are affine. -/
theorem transform_product {a b : M44 K} (hb : b.Affine) (p : V3 K) : (a.mul b).transformCoordinate p = a.transformCoordinate (b.transformCoordinate p) ∧
    (a.mul b).transformVector p = a.transformVector (b.transformVector p) ∧ (M44.identity : M44 K).transformCoordinate p = p ∧ (M44.identity : M44 K).Affine ∧
    (a.Affine → (a.mul b).Affine) := by
  obtain ⟨h1, h2, h3, h4⟩ := hb
  refine ⟨?_, ?_, ?_, by simp [M44.Affine, M44.identity, M44.set], ?_⟩
  · simp only [M44.transformCoordinate, M44.mul, h1, h2, h3, h4, V3.mk.injEq]
    refine ⟨?_, ?_, ?_⟩ <;> ring
  · simp only [M44.transformVector, M44.mul, h1, h2, h3, h4, V3.mk.injEq]
    refine ⟨?_, ?_, ?_⟩ <;> ring
  · simp [M44.transformCoordinate, M44.identity, M44.set]
  · rintro ⟨g1, g2, g3, g4⟩
    simp [M44.Affine, M44.mul, h1, h2, h3, h4, g1, g2, g3, g4]

/-- C40: 3x3 matrices. -/
theorem matrix33_operations (a b : M33 K) :
    (a.mul b).toM = a.toM * b.toM ∧ a.transposed.toM = a.toMᵀ ∧ a.determinant = a.toM.det ∧ (M33.identity : M33 K).toM = 1 :=
  ⟨toM33_mul a b, toM33_transposed a, toM33_determinant a, toM33_identity⟩

end Ring

section Field
variable [Field K] [LinearOrder K] [IsStrictOrderedRing K]

/-- C41: the inverse of a 4x4 matrix whose determinant is not within 2^-52 of zero. -/
theorem inverse {a : M44 K} (h : 1 / 2 ^ 52 < |a.determinant|) : a.inverted.mul a = .identity ∧ a.mul a.inverted = .identity ∧ a.inverted.toM = a.toM⁻¹ := by
  have hd : a.determinant ≠ 0 := by
    intro e
    rw [e, abs_zero] at h
    have : (0 : K) < 1 / 2 ^ 52 := by positivity
    linarith
  have e1 : a.m00 * a.cofactors.m00 + a.m10 * a.cofactors.m01 + a.m20 * a.cofactors.m02 + a.m30 * a.cofactors.m03 = a.determinant := by
    simp [M44.cofactors, M44.determinant]
  have h1 : a.inverted.toM * a.toM = 1 := by
    rw [M44.inverted, e1, safeDet_big h, toM_scalar, Matrix.smul_mul, cofactors_mul, smul_smul, one_div, inv_mul_cancel₀ hd, one_smul]
  have h2 : a.toM * a.inverted.toM = 1 := mul_eq_one_comm.mp h1
  refine ⟨M44.toM_inj (by rw [toM_mul, h1, toM_identity]), M44.toM_inj (by rw [toM_mul, h2, toM_identity]), ?_⟩
  exact (Matrix.inv_eq_left_inv h1).symm

/-- C41: the inverse of a 3x3 matrix whose determinant is not within 0.0001 of zero. -/
theorem inverse33 {a : M33 K} (h : 1 / 10000 ≤ |a.determinant|) : a.inverted.mul a = .identity ∧ a.mul a.inverted = .identity ∧ a.inverted.toM = a.toM⁻¹ := by
  have hd : a.determinant ≠ 0 := by
    intro e
    rw [e, abs_zero] at h
    have : (0 : K) < 1 / 10000 := by positivity
    linarith
  have hs : safeDet33 a.determinant = a.determinant := by rw [safeDet33, equivalent_zero (by rw [tolerance]; exact h)]; simp
  have e2 : (M33.scalar (1 / a.determinant) a.cofactors).toM = (1 / a.determinant) • a.cofactors.toM := by
    ext i j; fin_cases i <;> fin_cases j <;> simp [M33.toM, M33.scalar, mul_comm]
  have h1 : a.inverted.toM * a.toM = 1 := by
    rw [M33.inverted, hs, e2, Matrix.smul_mul, cofactors33_mul, smul_smul, one_div, inv_mul_cancel₀ hd, one_smul]
  have h2 : a.toM * a.inverted.toM = 1 := mul_eq_one_comm.mp h1
  refine ⟨M33.toM_inj (by rw [toM33_mul, h1, toM33_identity]), M33.toM_inj (by rw [toM33_mul, h2, toM33_identity]), ?_⟩
  exact (Matrix.inv_eq_left_inv h1).symm

/-- C41: nothing is divided by zero, whatever the matrix. -/
theorem inverse_defined (d : K) : safeDet d ≠ 0 ∧ safeDet33 d ≠ 0 := ⟨safeDet_ne d, safeDet33_ne d⟩

end Field

/-! ## Samples and limits -/

def sample44 : M44 ℚ := ⟨1, 2, 0, 0, 0, 1, 3, 0, 1, 0, 1, 0, 5, 6, 7, 1⟩
def sample33 : M33 ℚ := ⟨1, 2, 0, 0, 1, 3, 1, 0, 1⟩

example : sample44.Affine ∧ 1 / 2 ^ 52 < |sample44.determinant| ∧ sample44.inverted.mul sample44 = .identity := by rw [M44.Affine]; decide +kernel
example : 1 / 10000 ≤ |sample33.determinant| ∧ sample33.inverted.mul sample33 = .identity := by decide +kernel

/-- C41: below the threshold, regular matrices are not inverted: scaling by 10^-6 in space, and by 1/200 in the plane. -/
theorem inverse_small_violated : (∃ a : M44 ℚ, a = M44.scale ⟨1 / 10 ^ 6, 1 / 10 ^ 6, 1 / 10 ^ 6⟩ ∧ a.determinant ≠ 0 ∧ a.inverted.mul a ≠ .identity) ∧
    ∃ a : M33 ℚ, a = M33.scale (1 / 200) (1 / 200) ∧ a.determinant ≠ 0 ∧ a.inverted.mul a ≠ .identity :=
  ⟨⟨_, rfl, by decide +kernel, by decide +kernel⟩, ⟨_, rfl, by decide +kernel, by decide +kernel⟩⟩

end Verif.Geo
