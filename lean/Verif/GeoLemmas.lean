import Verif.GeoSpec
import Mathlib.LinearAlgebra.Matrix.Determinant.Basic
import Mathlib.Tactic.Ring
import Mathlib.Tactic.FinCases
import Mathlib.Tactic.Linarith
import Mathlib.Tactic.FieldSimp

/-! # Matrices: lemmas -/

namespace Verif.Geo

open Matrix

variable {K : Type}

theorem M44.toM_inj {a b : M44 K} (h : a.toM = b.toM) : a = b := by
  have e : ∀ i j, a.toM i j = b.toM i j := fun i j => by rw [h]
  ext
  · exact e 0 0
  · exact e 1 0
  · exact e 2 0
  · exact e 3 0
  · exact e 0 1
  · exact e 1 1
  · exact e 2 1
  · exact e 3 1
  · exact e 0 2
  · exact e 1 2
  · exact e 2 2
  · exact e 3 2
  · exact e 0 3
  · exact e 1 3
  · exact e 2 3
  · exact e 3 3

theorem M33.toM_inj {a b : M33 K} (h : a.toM = b.toM) : a = b := by
  have e : ∀ i j, a.toM i j = b.toM i j := fun i j => by rw [h]
  ext
  · exact e 0 0
  · exact e 1 0
  · exact e 2 0
  · exact e 0 1
  · exact e 1 1
  · exact e 2 1
  · exact e 0 2
  · exact e 1 2
  · exact e 2 2

section Ring
variable [CommRing K]

theorem toM_identity : (M44.identity : M44 K).toM = 1 := by
  ext i j; fin_cases i <;> fin_cases j <;> simp [M44.toM, M44.identity, M44.set]

theorem toM_mul (a b : M44 K) : (a.mul b).toM = a.toM * b.toM := by
  ext i j; fin_cases i <;> fin_cases j <;> simp [M44.toM, M44.mul, Matrix.mul_apply, Fin.sum_univ_four]

omit [CommRing K] in
theorem toM_transposed (a : M44 K) : a.transposed.toM = a.toMᵀ := by
  ext i j; fin_cases i <;> fin_cases j <;> simp [M44.toM, M44.transposed]

theorem toM_scalar (s : K) (a : M44 K) : (a.scalar s).toM = s • a.toM := by
  ext i j; fin_cases i <;> fin_cases j <;> simp [M44.toM, M44.scalar]

theorem toM_determinant (a : M44 K) : a.determinant = a.toM.det := by
  simp [Matrix.det_succ_row_zero, Fin.sum_univ_succ, M44.toM, M44.determinant, det3x3, det2x2, Fin.succAbove]
  ring

theorem toM33_identity : (M33.identity : M33 K).toM = 1 := by
  ext i j; fin_cases i <;> fin_cases j <;> simp [M33.toM, M33.identity]

theorem toM33_mul (a b : M33 K) : (a.mul b).toM = a.toM * b.toM := by
  ext i j; fin_cases i <;> fin_cases j <;> simp [M33.toM, M33.mul, Matrix.mul_apply, Fin.sum_univ_three]

omit [CommRing K] in
theorem toM33_transposed (a : M33 K) : a.transposed.toM = a.toMᵀ := by
  ext i j; fin_cases i <;> fin_cases j <;> simp [M33.toM, M33.transposed]

theorem toM33_determinant (a : M33 K) : a.determinant = a.toM.det := by
  simp [Matrix.det_fin_three, M33.toM, M33.determinant, M33.cofactors, det2x2]
  ring

theorem cofactors_mul (a : M44 K) : a.cofactors.toM * a.toM = a.determinant • 1 := by
  ext i j
  fin_cases i <;> fin_cases j <;> simp [M44.toM, M44.cofactors, M44.determinant, det3x3, det2x2, Matrix.mul_apply, Fin.sum_univ_four] <;> ring

theorem cofactors33_mul (a : M33 K) : a.cofactors.toM * a.toM = a.determinant • 1 := by
  ext i j
  fin_cases i <;> fin_cases j <;> simp [M33.toM, M33.determinant, M33.cofactors, det2x2, Matrix.mul_apply, Fin.sum_univ_three] <;> ring

end Ring

section Field
variable [Field K] [LinearOrder K] [IsStrictOrderedRing K]

theorem tolerance_pos : (0 : K) < tolerance := by rw [tolerance]; positivity

theorem safeDet_ne (d : K) : safeDet d ≠ 0 := by
  have ht := tolerance_pos (K := K)
  rw [safeDet, sign]
  split
  · split
    · rw [one_mul]; exact ne_of_gt ht
    · intro h; linarith
  · rename_i h
    rintro rfl
    apply h
    constructor <;> simp

theorem safeDet_big {d : K} (h : 1 / 2 ^ 52 < |d|) : safeDet d = d := by
  rw [safeDet, if_neg]
  rintro ⟨h1, h2⟩
  rcases lt_abs.mp h with h | h <;> linarith

theorem safeDet33_ne (d : K) : safeDet33 d ≠ 0 := by
  rw [safeDet33]
  split
  · positivity
  · rename_i h
    rintro rfl
    apply h
    simp [equivalent, tolerance_pos]

theorem equivalent_zero {d : K} (h : tolerance ≤ |d|) : equivalent d 0 = false := by
  rw [equivalent]
  rcases le_abs.mp h with h | h
  · simp; intro h'; linarith
  · simp; intro h'; linarith

end Field

end Verif.Geo
