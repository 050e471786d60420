import Verif.GeoRotLemmas
import Verif.GeoRotSpec

/-! # Decomposition of matrices: lemmas -/

namespace Verif.Geo

/-- Three orthonormal, right-handed columns. -/
structure Ortho (r : M44 ℝ) : Prop where
  c0x : r.m00 = r.m11 * r.m22 - r.m12 * r.m21
  c0y : r.m01 = r.m12 * r.m20 - r.m10 * r.m22
  c0z : r.m02 = r.m10 * r.m21 - r.m11 * r.m20
  c1x : r.m10 = r.m21 * r.m02 - r.m22 * r.m01
  c1y : r.m11 = r.m22 * r.m00 - r.m20 * r.m02
  c1z : r.m12 = r.m20 * r.m01 - r.m21 * r.m00
  c2x : r.m20 = r.m01 * r.m12 - r.m02 * r.m11
  c2y : r.m21 = r.m02 * r.m10 - r.m00 * r.m12
  c2z : r.m22 = r.m00 * r.m11 - r.m01 * r.m10
  row : r.m00 * r.m00 + r.m10 * r.m10 + r.m20 * r.m20 = 1
  col : r.m20 * r.m20 + r.m21 * r.m21 + r.m22 * r.m22 = 1
  col1 : r.m10 * r.m10 + r.m11 * r.m11 + r.m12 * r.m12 = 1

theorem cross_eq {a0 a1 a2 b0 b1 b2 c0 c1 c2 : ℝ} (ha : a0 * a0 + a1 * a1 + a2 * a2 = 1) (hb : b0 * b0 + b1 * b1 + b2 * b2 = 1) (hc : c0 * c0 + c1 * c1 + c2 * c2 = 1)
    (hbc : b0 * c0 + b1 * c1 + b2 * c2 = 0) (hdet : a0 * (b1 * c2 - b2 * c1) + a1 * (b2 * c0 - b0 * c2) + a2 * (b0 * c1 - b1 * c0) = 1) :
    a0 = b1 * c2 - b2 * c1 ∧ a1 = b2 * c0 - b0 * c2 ∧ a2 = b0 * c1 - b1 * c0 := by
  have key : (a0 - (b1 * c2 - b2 * c1)) * (a0 - (b1 * c2 - b2 * c1)) + (a1 - (b2 * c0 - b0 * c2)) * (a1 - (b2 * c0 - b0 * c2)) +
      (a2 - (b0 * c1 - b1 * c0)) * (a2 - (b0 * c1 - b1 * c0)) = 0 := by
    linear_combination ha - 2 * hdet + (c0 * c0 + c1 * c1 + c2 * c2) * hb + hc - (b0 * c0 + b1 * c1 + b2 * c2) * hbc
  have h0 := mul_self_nonneg (a0 - (b1 * c2 - b2 * c1))
  have h1 := mul_self_nonneg (a1 - (b2 * c0 - b0 * c2))
  have h2 := mul_self_nonneg (a2 - (b0 * c1 - b1 * c0))
  refine ⟨?_, ?_, ?_⟩
  · have : (a0 - (b1 * c2 - b2 * c1)) * (a0 - (b1 * c2 - b2 * c1)) = 0 := by linarith
    linarith [mul_self_eq_zero.mp this]
  · have : (a1 - (b2 * c0 - b0 * c2)) * (a1 - (b2 * c0 - b0 * c2)) = 0 := by linarith
    linarith [mul_self_eq_zero.mp this]
  · have : (a2 - (b0 * c1 - b1 * c0)) * (a2 - (b0 * c1 - b1 * c0)) = 0 := by linarith
    linarith [mul_self_eq_zero.mp this]

theorem ortho_of {r : M44 ℝ} (x : r.m00 * r.m00 + r.m01 * r.m01 + r.m02 * r.m02 = 1) (y : r.m10 * r.m10 + r.m11 * r.m11 + r.m12 * r.m12 = 1)
    (z : r.m20 * r.m20 + r.m21 * r.m21 + r.m22 * r.m22 = 1) (xy : r.m00 * r.m10 + r.m01 * r.m11 + r.m02 * r.m12 = 0)
    (xz : r.m00 * r.m20 + r.m01 * r.m21 + r.m02 * r.m22 = 0) (yz : r.m10 * r.m20 + r.m11 * r.m21 + r.m12 * r.m22 = 0)
    (det : det3x3 r.m00 r.m01 r.m02 r.m10 r.m11 r.m12 r.m20 r.m21 r.m22 = 1) : Ortho r := by
  simp only [det3x3, det2x2] at det
  obtain ⟨e00, e01, e02⟩ := cross_eq x y z yz (by linarith)
  obtain ⟨e10, e11, e12⟩ := cross_eq y z x (by linarith) (by linarith)
  obtain ⟨e20, e21, e22⟩ := cross_eq z x y xy (by linarith)
  refine ⟨e00, e01, e02, e10, e11, e12, e20, e21, e22, ?_, z, y⟩
  linear_combination r.m00 * e00 + r.m10 * e10 + r.m20 * e20 + det

theorem pole {a y c s : ℝ} (hc : Real.cos a = c) (hs : Real.sin a = s) :
    ((xAxisRotationMatrix a).mul (yAxisRotationMatrix y)).mul (zAxisRotationMatrix 0) =
      ⟨Real.cos y, s * Real.sin y, -(c * Real.sin y), 0, 0, c, s, 0, Real.sin y, -(s * Real.cos y), c * Real.cos y, 0, 0, 0, 0, 1⟩ := by
  rw [xAxisRotationMatrix, yAxisRotationMatrix, zAxisRotationMatrix, hc, hs, Real.cos_zero, Real.sin_zero]
  generalize Real.cos y = c'
  generalize Real.sin y = s'
  ext <;> simp [M44.mul, M44.xRotation, M44.yRotation, M44.zRotation, M44.identity, M44.set]

/-- The rotation that `Decompose` finds, for a matrix without scale. -/
theorem decompose_ortho {r : M44 ℝ} (h : Ortho r) (hy : |r.m20| < 1 - tolerance ∨ |r.m20| = 1) {a : V3 ℝ} (ha : a = decomposeRotation r ⟨1, 1, 1⟩) :
    ((xAxisRotationMatrix a.x).mul (yAxisRotationMatrix a.y)).mul (zAxisRotationMatrix a.z) =
      ⟨r.m00, r.m01, r.m02, 0, r.m10, r.m11, r.m12, 0, r.m20, r.m21, r.m22, 0, 0, 0, 0, 1⟩ := by
  obtain ⟨e00, e01, e02, e10, e11, e12, e20, e21, e22, row, col, col1⟩ := h
  have ht : (tolerance : ℝ) = 1 / 10000 := rfl
  subst ha
  rcases hy with hy | hy
  · have hy' := abs_lt.mp hy
    rw [decomposeRotation]
    simp only [div_one]
    have hd : decomposeY r.m20 = (Real.arcsin r.m20, Real.cos (Real.arcsin r.m20)) := by
      rw [decomposeY, if_neg (by linarith), if_neg (by linarith)]
    rw [hd]
    set c := Real.cos (Real.arcsin r.m20) with hc
    have hs : Real.sin (Real.arcsin r.m20) = r.m20 := Real.sin_arcsin (by linarith) (by linarith)
    have hcc : c * c + r.m20 * r.m20 = 1 := by have := cos_sin (Real.arcsin r.m20); rwa [hs] at this
    have hc0 : 0 ≤ c := Real.cos_arcsin_nonneg _
    have hc1 : c > 1 / 100 := by
      by_contra hlt
      have hlt := not_lt.mp hlt
      have h1 : r.m20 * r.m20 ≤ (1 - tolerance) * (1 - tolerance) := by
        have := abs_mul_abs_self r.m20
        have h0 := abs_nonneg r.m20
        nlinarith
      have h2 : c * c ≤ 1 / 100 * (1 / 100) := by nlinarith
      rw [ht] at h1
      norm_num at h1 h2
      linarith
    have hne : c ≠ 0 := by linarith
    rw [if_pos (by rw [abs_of_nonneg hc0]; exact hc1)]
    have hx : r.m22 / c * (r.m22 / c) + -r.m21 / c * (-r.m21 / c) = 1 := by
      field_simp
      linarith
    have hz : r.m00 / c * (r.m00 / c) + -r.m10 / c * (-r.m10 / c) = 1 := by
      field_simp
      linarith
    obtain ⟨x1, x2⟩ := cos_atan2 hx
    obtain ⟨z1, z2⟩ := cos_atan2 hz
    have h01 : c * c * r.m01 = -r.m21 * r.m20 * r.m00 - r.m22 * r.m10 := by grind
    have h02 : c * c * r.m02 = -r.m22 * r.m20 * r.m00 + r.m21 * r.m10 := by grind
    have h11 : c * c * r.m11 = -r.m21 * r.m20 * r.m10 + r.m22 * r.m00 := by grind
    have h12 : c * c * r.m12 = -r.m22 * r.m20 * r.m10 - r.m21 * r.m00 := by grind
    have hcne : c * c ≠ 0 := mul_ne_zero hne hne
    have k01 : r.m01 = (-r.m21 * r.m20 * r.m00 - r.m22 * r.m10) / (c * c) := by rw [eq_div_iff hcne]; linarith
    have k02 : r.m02 = (-r.m22 * r.m20 * r.m00 + r.m21 * r.m10) / (c * c) := by rw [eq_div_iff hcne]; linarith
    have k11 : r.m11 = (-r.m21 * r.m20 * r.m10 + r.m22 * r.m00) / (c * c) := by rw [eq_div_iff hcne]; linarith
    have k12 : r.m12 = (-r.m22 * r.m20 * r.m10 - r.m21 * r.m00) / (c * c) := by rw [eq_div_iff hcne]; linarith
    simp only [xAxisRotationMatrix, yAxisRotationMatrix, zAxisRotationMatrix, x1, x2, z1, z2, hs, ← hc]
    ext <;> simp [M44.mul, M44.xRotation, M44.yRotation, M44.zRotation, M44.identity, M44.set]
    · field_simp
    · rw [k01]; field_simp; ring
    · rw [k02]; field_simp
    · field_simp
    · rw [k11]; field_simp
    · rw [k12]; field_simp; ring
    · field_simp
    · field_simp
  · have hz : r.m20 * r.m20 = 1 := by
      have := abs_mul_abs_self r.m20
      rw [hy] at this; linarith
    have h00 : r.m00 = 0 := mul_self_eq_zero.mp (by linarith [mul_self_nonneg r.m00, mul_self_nonneg r.m10])
    have h10 : r.m10 = 0 := mul_self_eq_zero.mp (by linarith [mul_self_nonneg r.m00, mul_self_nonneg r.m10])
    have h21 : r.m21 = 0 := mul_self_eq_zero.mp (by linarith [mul_self_nonneg r.m21, mul_self_nonneg r.m22])
    have h22 : r.m22 = 0 := mul_self_eq_zero.mp (by linarith [mul_self_nonneg r.m21, mul_self_nonneg r.m22])
    rw [h10] at col1
    obtain ⟨x1, x2⟩ := cos_atan2 (x := r.m11) (y := r.m12) (by linarith)
    rw [decomposeRotation]
    simp only [div_one]
    have hpm : r.m20 = 1 ∨ r.m20 = -1 := by
      rcases abs_choice r.m20 with e | e
      · left; rw [← hy, e]
      · right; rw [← hy, e]; ring
    rcases hpm with e | e
    · have hd : decomposeY r.m20 = (Real.pi / 2, 0) := by
        rw [decomposeY, if_pos (by rw [e, ht]; norm_num)]
      rw [hd, if_neg (by simp)]
      have g01 : r.m01 = r.m12 := by rw [e01, e, h10]; ring
      have g02 : r.m02 = -r.m11 := by rw [e02, e, h10]; ring
      rw [pole x1 x2, h00, h10, h21, h22, e, g01, g02]
      simp
    · have hd : decomposeY r.m20 = (-(Real.pi / 2), 0) := by
        rw [decomposeY, if_neg (by rw [e, ht]; norm_num), if_pos (by rw [e, ht]; norm_num)]
      rw [hd, if_neg (by simp)]
      have g01 : r.m01 = -r.m12 := by rw [e01, e, h10]; ring
      have g02 : r.m02 = r.m11 := by rw [e02, e, h10]; ring
      rw [pole x1 x2, h00, h10, h21, h22, e, g01, g02]
      simp

theorem sign_cases (x : ℝ) : (sign x = 1 ∧ 0 ≤ x) ∨ (sign x = -1 ∧ x < 0) := by
  unfold sign
  split
  · left; exact ⟨rfl, ‹_›⟩
  · right; exact ⟨rfl, not_le.mp ‹_›⟩

theorem columnLength_sq (a b c : ℝ) : columnLength a b c * columnLength a b c = a * a + b * b + c * c := by
  rw [columnLength, Real.mul_self_sqrt]
  have := mul_self_nonneg a
  have := mul_self_nonneg b
  have := mul_self_nonneg c
  linarith

theorem nonZeroScale_eq {s : ℝ} (h : tolerance ≤ s) : nonZeroScale s = s := by
  rw [nonZeroScale, if_neg]
  rw [equivalent_true, sub_zero, abs_of_nonneg (le_trans (le_of_lt tolerance_pos) h)]
  exact not_lt.mpr h

/-- A matrix with orthogonal columns, divided by its scale. -/
noncomputable def unscaled (m : M44 ℝ) (s : V3 ℝ) : M44 ℝ :=
  ⟨m.m00 / s.x, m.m01 / s.x, m.m02 / s.x, m.m03, m.m10 / s.y, m.m11 / s.y, m.m12 / s.y, m.m13, m.m20 / s.z, m.m21 / s.z, m.m22 / s.z, m.m23,
    m.m30, m.m31, m.m32, m.m33⟩

theorem decomposeRotation_unscaled (m : M44 ℝ) (s : V3 ℝ) : decomposeRotation m s = decomposeRotation (unscaled m s) ⟨1, 1, 1⟩ := by
  simp [decomposeRotation, unscaled, neg_div]

theorem unscaled_ortho {m : M44 ℝ} {e sx sy sz : ℝ} (xy : m.m00 * m.m10 + m.m01 * m.m11 + m.m02 * m.m12 = 0)
    (xz : m.m00 * m.m20 + m.m01 * m.m21 + m.m02 * m.m22 = 0) (yz : m.m10 * m.m20 + m.m11 * m.m21 + m.m12 * m.m22 = 0)
    (hx : sx * sx = m.m00 * m.m00 + m.m01 * m.m01 + m.m02 * m.m02) (hy : sy * sy = m.m10 * m.m10 + m.m11 * m.m11 + m.m12 * m.m12)
    (hz : sz * sz = m.m20 * m.m20 + m.m21 * m.m21 + m.m22 * m.m22) (px : 0 < sx) (py : 0 < sy) (pz : 0 < sz)
    (he : (e = 1 ∧ 0 ≤ det3x3 m.m00 m.m01 m.m02 m.m10 m.m11 m.m12 m.m20 m.m21 m.m22) ∨
      (e = -1 ∧ det3x3 m.m00 m.m01 m.m02 m.m10 m.m11 m.m12 m.m20 m.m21 m.m22 < 0)) :
    Ortho (unscaled m ⟨e * sx, e * sy, e * sz⟩) := by
  have hee : e * e = 1 := by rcases he with ⟨h, -⟩ | ⟨h, -⟩ <;> rw [h] <;> norm_num
  have he0 : e ≠ 0 := by intro h; rw [h] at hee; norm_num at hee
  have hdd : det3x3 m.m00 m.m01 m.m02 m.m10 m.m11 m.m12 m.m20 m.m21 m.m22 * det3x3 m.m00 m.m01 m.m02 m.m10 m.m11 m.m12 m.m20 m.m21 m.m22 =
      (sx * sy * sz) * (sx * sy * sz) := by
    have : (sx * sy * sz) * (sx * sy * sz) = (sx * sx) * (sy * sy) * (sz * sz) := by ring
    rw [this, hx, hy, hz]
    simp only [det3x3, det2x2]
    linear_combination -(2 * (m.m00 * m.m20 + m.m01 * m.m21 + m.m02 * m.m22) * (m.m10 * m.m20 + m.m11 * m.m21 + m.m12 * m.m22)) * (-xy) -
      (m.m20 * m.m20 + m.m21 * m.m21 + m.m22 * m.m22) * (m.m00 * m.m10 + m.m01 * m.m11 + m.m02 * m.m12) * xy -
      (m.m10 * m.m10 + m.m11 * m.m11 + m.m12 * m.m12) * (m.m00 * m.m20 + m.m01 * m.m21 + m.m02 * m.m22) * xz -
      (m.m00 * m.m00 + m.m01 * m.m01 + m.m02 * m.m02) * (m.m10 * m.m20 + m.m11 * m.m21 + m.m12 * m.m22) * yz
  have hp : 0 < sx * sy * sz := mul_pos (mul_pos px py) pz
  have hdet : det3x3 m.m00 m.m01 m.m02 m.m10 m.m11 m.m12 m.m20 m.m21 m.m22 = e * (sx * sy * sz) := by
    rcases mul_self_eq_mul_self_iff.mp hdd with h | h <;> rcases he with ⟨h1, h2⟩ | ⟨h1, h2⟩ <;> rw [h1] <;> linarith
  have nx : e * sx ≠ 0 := mul_ne_zero he0 px.ne'
  have ny : e * sy ≠ 0 := mul_ne_zero he0 py.ne'
  have nz : e * sz ≠ 0 := mul_ne_zero he0 pz.ne'
  have qx : e * sx * (e * sx) = sx * sx := by linear_combination sx * sx * hee
  have qy : e * sy * (e * sy) = sy * sy := by linear_combination sy * sy * hee
  have qz : e * sz * (e * sz) = sz * sz := by linear_combination sz * sz * hee
  have q : e * sx * (e * sy) * (e * sz) = e * (sx * sy * sz) := by linear_combination e * (sx * sy * sz) * hee
  rw [hx] at qx
  rw [hy] at qy
  rw [hz] at qz
  rw [← hdet] at q
  clear hx hy hz px py pz he hee he0 hdd hp hdet
  generalize e * sx = a at *
  generalize e * sy = b at *
  generalize e * sz = c at *
  simp only [det3x3, det2x2] at q
  apply ortho_of <;> simp only [unscaled, det3x3, det2x2] <;> field_simp
  all_goals grind

theorem decompose_composeXYZ {m : M44 ℝ} (ha : m.Affine) (xy : m.m00 * m.m10 + m.m01 * m.m11 + m.m02 * m.m12 = 0)
    (xz : m.m00 * m.m20 + m.m01 * m.m21 + m.m02 * m.m22 = 0) (yz : m.m10 * m.m20 + m.m11 * m.m21 + m.m12 * m.m22 = 0)
    (px : tolerance ≤ columnLength m.m00 m.m01 m.m02) (py : tolerance ≤ columnLength m.m10 m.m11 m.m12) (pz : tolerance ≤ columnLength m.m20 m.m21 m.m22)
    (hv : |m.m20 / columnLength m.m20 m.m21 m.m22| < 1 - tolerance ∨ |m.m20 / columnLength m.m20 m.m21 m.m22| = 1) :
    composeXYZ (decompose m) = m := by
  have ht : (0 : ℝ) < tolerance := tolerance_pos
  have hsx := columnLength_sq m.m00 m.m01 m.m02
  have hsy := columnLength_sq m.m10 m.m11 m.m12
  have hsz := columnLength_sq m.m20 m.m21 m.m22
  set sx := columnLength m.m00 m.m01 m.m02
  set sy := columnLength m.m10 m.m11 m.m12
  set sz := columnLength m.m20 m.m21 m.m22
  have he := sign_cases (det3x3 m.m00 m.m01 m.m02 m.m10 m.m11 m.m12 m.m20 m.m21 m.m22)
  set e := sign (det3x3 m.m00 m.m01 m.m02 m.m10 m.m11 m.m12 m.m20 m.m21 m.m22) with hed
  have ho := unscaled_ortho xy xz yz hsx hsy hsz (by linarith) (by linarith) (by linarith) he
  have hsc : (if e < 0 then V3.neg ⟨nonZeroScale sx, nonZeroScale sy, nonZeroScale sz⟩ else ⟨nonZeroScale sx, nonZeroScale sy, nonZeroScale sz⟩ : V3 ℝ) =
      ⟨e * sx, e * sy, e * sz⟩ := by
    rw [nonZeroScale_eq px, nonZeroScale_eq py, nonZeroScale_eq pz]
    rcases he with ⟨h, -⟩ | ⟨h, -⟩ <;> rw [h] <;> norm_num [V3.neg]
  have hd : decompose m = ⟨⟨sx, sy, sz⟩, decomposeRotation (unscaled m ⟨e * sx, e * sy, e * sz⟩) ⟨1, 1, 1⟩, ⟨m.m30, m.m31, m.m32⟩, e⟩ := by
    rw [← decomposeRotation_unscaled, ← hsc]; rfl
  have habs : |(unscaled m ⟨e * sx, e * sy, e * sz⟩).m20| = |m.m20 / sz| := by
    simp only [unscaled]
    rcases he with ⟨h, -⟩ | ⟨h, -⟩ <;> rw [h] <;> simp [abs_div]
  have hr := decompose_ortho ho (by rw [habs]; exact hv) rfl
  have hee : e ≠ 0 := by rcases he with ⟨h, -⟩ | ⟨h, -⟩ <;> rw [h] <;> norm_num
  rw [hd, composeXYZ, hr]
  obtain ⟨a1, a2, a3, a4⟩ := ha
  have nx : sx ≠ 0 := by linarith
  have ny : sy ≠ 0 := by linarith
  have nz : sz ≠ 0 := by linarith
  clear_value sx sy sz e
  ext <;> simp [M44.mul, M44.translation, M44.scale, M44.identity, M44.set, V3.smul, unscaled, a1, a2, a3, a4]
  all_goals field_simp

theorem rigid_det3 {m : M44 ℝ} (h : Rigid m) : det3x3 m.m00 m.m01 m.m02 m.m10 m.m11 m.m12 m.m20 m.m21 m.m22 = 1 := by
  obtain ⟨⟨a1, a2, a3, a4⟩, -, -, -, -, -, -, d⟩ := h
  rw [← d]
  simp only [M44.determinant, det3x3, det2x2, a1, a2, a3, a4]
  ring

theorem decomposable_rigid {m : M44 ℝ} (h : Rigid m) : Decomposable m := by
  have ht : (tolerance : ℝ) ≤ √1 := by rw [Real.sqrt_one, tolerance]; norm_num
  refine ⟨h.affine, h.xy, h.xz, h.yz, ?_, ?_, ?_⟩
  · rw [h.x]; exact ht
  · rw [h.y]; exact ht
  · rw [h.z]; exact ht

theorem decompose_rigid {m : M44 ℝ} (h : Rigid m) : decompose m = ⟨⟨1, 1, 1⟩, decomposeRotation m ⟨1, 1, 1⟩, ⟨m.m30, m.m31, m.m32⟩, 1⟩ := by
  have h1 : nonZeroScale 1 = 1 := nonZeroScale_eq (by rw [tolerance]; norm_num)
  simp only [decompose, columnLength, h.x, h.y, h.z, rigid_det3 h, Real.sqrt_one, h1]
  have : sign (1 : ℝ) = 1 := by simp [sign]
  rw [this]
  norm_num

theorem turned_decomposable (c s : ℝ) (h : c * c + s * s = 1) : Decomposable ((M44.xRotation (3 / 5) (4 / 5)).mul (M44.yRotation c s)) ∧
    Decomposable (M44.yRotation c s) := by
  have h1 : Rigid (M44.xRotation (3 / 5 : ℝ) (4 / 5)) := by
    rw [← axisRotation_x]; exact axisRotation_rigid (by simp [V3.lengthSquared]) (by norm_num)
  have h2 : Rigid (M44.yRotation c s) := by
    rw [← axisRotation_y]; exact axisRotation_rigid (by simp [V3.lengthSquared]) h
  exact ⟨decomposable_rigid (rigid_mul h1 h2), decomposable_rigid h2⟩

end Verif.Geo
