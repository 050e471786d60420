import Verif.GeoRotLemmas

/-! # Axes and viewing directions: lemmas -/

namespace Verif.Geo

theorem lengthSquared_zero {a : V3 ℝ} : a.lengthSquared = 0 ↔ a = ⟨0, 0, 0⟩ := by
  constructor
  · intro h
    rw [V3.lengthSquared] at h
    have hx := mul_self_nonneg a.x
    have hy := mul_self_nonneg a.y
    have hz := mul_self_nonneg a.z
    ext
    · exact mul_self_eq_zero.mp (by linarith)
    · exact mul_self_eq_zero.mp (by linarith)
    · exact mul_self_eq_zero.mp (by linarith)
  · intro h; rw [h]; simp [V3.lengthSquared]

theorem normalize_unitAxis (a : V3 ℝ) : a.normalize = unitAxis a := by
  rw [unitAxis]
  split
  · rename_i h; exact normalize_zero (lengthSquared_zero.mpr h)
  · rename_i h
    rw [normalize_eq (fun e => h (lengthSquared_zero.mp e))]
    simp only [V3.smul, V3.length, V3.mk.injEq]
    refine ⟨?_, ?_, ?_⟩ <;> ring

theorem unitAxis_unit (a : V3 ℝ) : (unitAxis a).lengthSquared = 1 := by rw [← normalize_unitAxis]; exact normalize_unit a

theorem unitAxis_of_unit {a : V3 ℝ} (h : a.lengthSquared = 1) : unitAxis a = a := by
  rw [unitAxis, if_neg (fun e => by rw [lengthSquared_zero.mpr e] at h; norm_num at h)]
  rw [V3.lengthSquared] at h
  rw [h]
  simp [V3.smul]

theorem unitAxis_smul (a : V3 ℝ) : ∃ l : ℝ, a = (unitAxis a).smul l := by
  by_cases h : a = ⟨0, 0, 0⟩
  · exact ⟨0, by rw [h]; simp [V3.smul]⟩
  · have hp : 0 < a.length := length_pos (fun e => h (lengthSquared_zero.mp e))
    refine ⟨a.length, ?_⟩
    rw [← normalize_unitAxis, normalize_eq (fun e => h (lengthSquared_zero.mp e))]
    ext <;> simp [V3.smul] <;> field_simp

theorem rotated_axis (a : V3 ℝ) (c s : ℝ) : rotated (unitAxis a) c s a = a := by
  obtain ⟨l, hl⟩ := unitAxis_smul a
  have hu := unitAxis_unit a
  generalize unitAxis a = u at *
  subst hl
  rw [V3.lengthSquared] at hu
  simp only [rotated, V3.add, V3.smul, V3.cross, V3.dot, V3.mk.injEq]
  refine ⟨?_, ?_, ?_⟩ <;> grind

theorem axisRotation_zero {a : V3 ℝ} (h : a.lengthSquared = 1) : M44.axisRotation a 1 0 = .identity := by
  rw [V3.lengthSquared] at h
  ext <;> simp [M44.axisRotation, M44.identity, M44.set]
  all_goals linarith

theorem axisRotationMatrix_x (t : ℝ) : axisRotationMatrix ⟨1, 0, 0⟩ t = xAxisRotationMatrix t := by
  rw [axisRotationMatrix, if_pos, axisRotation_x, xAxisRotationMatrix]
  simpa [V3.lengthSquared] using equivalent_refl 1

theorem axisRotationMatrix_y (t : ℝ) : axisRotationMatrix ⟨0, 1, 0⟩ t = yAxisRotationMatrix t := by
  rw [axisRotationMatrix, if_pos, axisRotation_y, yAxisRotationMatrix]
  simpa [V3.lengthSquared] using equivalent_refl 1

theorem axisRotationMatrix_z (t : ℝ) : axisRotationMatrix ⟨0, 0, 1⟩ t = zAxisRotationMatrix t := by
  rw [axisRotationMatrix, if_pos, axisRotation_z, zAxisRotationMatrix]
  simpa [V3.lengthSquared] using equivalent_refl 1

theorem xAxisRotationMatrix_zero : xAxisRotationMatrix 0 = .identity := by
  rw [xAxisRotationMatrix, Real.cos_zero, Real.sin_zero]
  ext <;> simp [M44.xRotation, M44.identity, M44.set]

theorem yAxisRotationMatrix_zero : yAxisRotationMatrix 0 = .identity := by
  rw [yAxisRotationMatrix, Real.cos_zero, Real.sin_zero]
  ext <;> simp [M44.yRotation, M44.identity, M44.set]

theorem zAxisRotationMatrix_zero : zAxisRotationMatrix 0 = .identity := by
  rw [zAxisRotationMatrix, Real.cos_zero, Real.sin_zero]
  ext <;> simp [M44.zRotation, M44.identity, M44.set]

theorem recompose_eq (p : Parts) : recompose p = ((M44.translation p.translation).mul
    (((zAxisRotationMatrix p.rotation.z).mul (yAxisRotationMatrix p.rotation.y)).mul (xAxisRotationMatrix p.rotation.x))).mul
    (M44.scale (V3.smul p.inverted p.scale)) := by
  rw [recompose, axisRotationMatrix_x, axisRotationMatrix_y, axisRotationMatrix_z]
  simp only [(matrix_algebra _ _ _).1]

theorem recompose_single {p : Parts}
    (hr : (p.rotation.x = 0 ∧ p.rotation.y = 0) ∨ (p.rotation.x = 0 ∧ p.rotation.z = 0) ∨ (p.rotation.y = 0 ∧ p.rotation.z = 0)) :
    recompose p = composeXYZ p := by
  have h1 : ∀ a : M44 ℝ, a.mul .identity = a := fun a => (matrix_algebra a a a).2.1
  have h2 : ∀ a : M44 ℝ, M44.identity.mul a = a := fun a => (matrix_algebra a a a).2.2.1
  rw [recompose_eq, composeXYZ]
  rcases hr with ⟨e1, e2⟩ | ⟨e1, e2⟩ | ⟨e1, e2⟩ <;>
    simp only [e1, e2, xAxisRotationMatrix_zero, yAxisRotationMatrix_zero, zAxisRotationMatrix_zero, h1, h2]

theorem equivalent3_near {a b : V3 ℝ} : equivalent3 a b = true ↔ Near a b := by
  rw [equivalent3, Bool.and_eq_true, Bool.and_eq_true, equivalent_true, equivalent_true, equivalent_true, Near, and_assoc]
  rfl

theorem lookAt_rigid {f s e : V3 ℝ} (hf : f.lengthSquared = 1) (hs : s.lengthSquared = 1) (h : s.dot f = 0) :
    Rigid (⟨s.x, s.y, s.z, 0, (s.cross f).x, (s.cross f).y, (s.cross f).z, 0, -f.x, -f.y, -f.z, 0, e.x, e.y, e.z, 1⟩ : M44 ℝ) := by
  simp only [V3.lengthSquared, V3.dot] at hf hs h
  refine ⟨by simp [M44.Affine], ?_, ?_, ?_, ?_, ?_, ?_, ?_⟩ <;> simp only [V3.cross, M44.determinant, det3x3, det2x2]
  all_goals grind

end Verif.Geo
