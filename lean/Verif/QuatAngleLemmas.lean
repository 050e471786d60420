import Verif.QuatLemmas

/-! # Quaternions and angles: lemmas -/

namespace Verif.Geo

theorem normalizeIt_unit {a : Quat} (h : a.Unit) : a.normalizeIt = a := by
  have : a.length = 1 := by rw [Quat.length, Quat.lengthSquared, h, Real.sqrt_one]
  rw [Quat.normalizeIt, this, if_pos one_pos]
  simp

theorem dot_le {a b : Quat} (ha : a.Unit) (hb : b.Unit) : -1 ≤ a.dot b ∧ a.dot b ≤ 1 := by
  rw [Quat.Unit] at ha hb
  have h1 := mul_self_nonneg (a.x - b.x)
  have h2 := mul_self_nonneg (a.y - b.y)
  have h3 := mul_self_nonneg (a.z - b.z)
  have h4 := mul_self_nonneg (a.w - b.w)
  have g1 := mul_self_nonneg (a.x + b.x)
  have g2 := mul_self_nonneg (a.y + b.y)
  have g3 := mul_self_nonneg (a.z + b.z)
  have g4 := mul_self_nonneg (a.w + b.w)
  rw [Quat.dot]
  constructor <;> nlinarith

/-- The values of `slerp` before the normalisation. -/
noncomputable def slerpRaw (a b : Quat) (θ t : ℝ) : Quat :=
  let i1 := Real.sin ((1 - t) * θ) / Real.sin θ
  let i2 := Real.sin (t * θ) / Real.sin θ
  ⟨i1 * a.x + i2 * b.x, i1 * a.y + i2 * b.y, i1 * a.z + i2 * b.z, i1 * a.w + i2 * b.w⟩

theorem slerpRaw_unit {a b : Quat} {θ t : ℝ} (ha : a.Unit) (hb : b.Unit) (hd : Real.cos θ = a.dot b) (hs : Real.sin θ ≠ 0) :
    (slerpRaw a b θ t).Unit ∧ (slerpRaw a b θ t).dot a = Real.cos (t * θ) ∧ (slerpRaw a b θ t).dot b = Real.cos ((1 - t) * θ) := by
  have e : θ = (1 - t) * θ + t * θ := by ring
  have c1 := cos_sin ((1 - t) * θ)
  have c2 := cos_sin (t * θ)
  have es : Real.sin θ = Real.sin ((1 - t) * θ) * Real.cos (t * θ) + Real.cos ((1 - t) * θ) * Real.sin (t * θ) := by rw [← Real.sin_add, ← e]
  have ec : Real.cos θ = Real.cos ((1 - t) * θ) * Real.cos (t * θ) - Real.sin ((1 - t) * θ) * Real.sin (t * θ) := by rw [← Real.cos_add, ← e]
  rw [hd] at ec
  rw [Quat.Unit] at ha hb
  simp only [slerpRaw, Quat.Unit, Quat.dot] at *
  generalize Real.sin θ = s at *
  generalize Real.sin ((1 - t) * θ) = s1 at *
  generalize Real.cos ((1 - t) * θ) = k1 at *
  generalize Real.sin (t * θ) = s2 at *
  generalize Real.cos (t * θ) = k2 at *
  refine ⟨?_, ?_, ?_⟩
  · field_simp
    have : (s1 * a.x + s2 * b.x) ^ 2 + (s1 * a.y + s2 * b.y) ^ 2 + (s1 * a.z + s2 * b.z) ^ 2 + (s1 * a.w + s2 * b.w) ^ 2 =
        s1 * s1 + s2 * s2 + 2 * s1 * s2 * (k1 * k2 - s1 * s2) := by
      linear_combination s1 * s1 * ha + s2 * s2 * hb + 2 * s1 * s2 * ec
    rw [this, es]
    linear_combination s1 * s1 * (-c2) + s2 * s2 * (-c1)
  · field_simp
    have : a.x * (s1 * a.x + s2 * b.x) + a.y * (s1 * a.y + s2 * b.y) + a.z * (s1 * a.z + s2 * b.z) + a.w * (s1 * a.w + s2 * b.w) = s1 + s2 * (k1 * k2 - s1 * s2) := by
      linear_combination s1 * ha + s2 * ec
    rw [this, es]; linear_combination -s1 * c2
  · field_simp
    have : b.x * (s1 * a.x + s2 * b.x) + b.y * (s1 * a.y + s2 * b.y) + b.z * (s1 * a.z + s2 * b.z) + b.w * (s1 * a.w + s2 * b.w) = s2 + s1 * (k1 * k2 - s1 * s2) := by
      linear_combination s2 * hb + s1 * ec
    rw [this, es]; linear_combination -s2 * c1

theorem slerp_eq {a b : Quat} {t : ℝ} (ha : a.Unit) (hb : b.Unit) (h1 : -1 < a.dot b) (h2 : a.dot b ≤ 1 - tolerance) :
    Real.sin (Real.arccos (a.dot b)) ≠ 0 ∧ Real.cos (Real.arccos (a.dot b)) = a.dot b ∧ a.slerp b t = some (slerpRaw a b (Real.arccos (a.dot b)) t) := by
  have ht : (0 : ℝ) < tolerance := tolerance_pos
  have hc : Real.cos (Real.arccos (a.dot b)) = a.dot b := Real.cos_arccos h1.le (by linarith)
  have hs : Real.sin (Real.arccos (a.dot b)) ≠ 0 := by
    rw [Real.sin_arccos]
    apply ne_of_gt
    apply Real.sqrt_pos.mpr
    nlinarith
  refine ⟨hs, hc, ?_⟩
  have hu := (slerpRaw_unit (t := t) ha hb hc hs).1
  have hd : a.x * b.x + a.y * b.y + a.z * b.z + a.w * b.w = a.dot b := rfl
  have hp : ¬ Real.arccos (a.dot b) < 0 := not_lt.mpr (Real.arccos_nonneg _)
  have hne : equivalent (a.dot b) 1 = false := by
    rw [Bool.eq_false_iff, Ne, equivalent_true, abs_lt]
    rintro ⟨h, -⟩
    linarith
  rw [Quat.slerp]
  simp only [hd, hne, if_neg hp, if_neg hs]
  rw [← normalizeIt_unit hu]
  simp only [slerpRaw]
  rw [if_neg (by simp)]

/-! ## Angles -/

theorem approachDown_spec (p : ℝ) : ∀ (k : Nat) (v : ℝ), v - p ≤ Real.pi + k * (2 * Real.pi) →
    ∃ (j : ℤ), ∀ n, k < n → approachDown n p v = some (v + j * (2 * Real.pi)) ∧ v + j * (2 * Real.pi) - p ≤ Real.pi ∧
      (-Real.pi ≤ v - p → -Real.pi ≤ v + j * (2 * Real.pi) - p) ∧ (v - p ≤ Real.pi → j = 0) := by
  intro k
  induction k with
  | zero =>
    intro v h
    have h : v - p ≤ Real.pi := by simpa using h
    refine ⟨0, fun n hn => ?_⟩
    obtain ⟨n, rfl⟩ : ∃ m, n = m + 1 := ⟨n - 1, by omega⟩
    rw [approachDown, if_neg (not_lt.mpr h)]
    simp [h]
  | succ k ih =>
    intro v h
    by_cases hv : v - p > Real.pi
    · obtain ⟨j, hj⟩ := ih (v - 2 * Real.pi) (by push_cast at h; linarith)
      refine ⟨j - 1, fun n hn => ?_⟩
      obtain ⟨n, rfl⟩ : ∃ m, n = m + 1 := ⟨n - 1, by omega⟩
      obtain ⟨e, b, c, d⟩ := hj n (by omega)
      have e2 : v - 2 * Real.pi + j * (2 * Real.pi) = v + ((j - 1 : ℤ) : ℝ) * (2 * Real.pi) := by push_cast; ring
      rw [approachDown, if_pos hv, e, ← e2]
      refine ⟨rfl, b, fun _ => c (by linarith), fun h' => absurd hv (not_lt.mpr h')⟩
    · refine ⟨0, fun n hn => ?_⟩
      obtain ⟨n, rfl⟩ : ∃ m, n = m + 1 := ⟨n - 1, by omega⟩
      rw [approachDown, if_neg hv]
      simp [not_lt.mp hv]

theorem approachUp_spec (p : ℝ) : ∀ (k : Nat) (v : ℝ), -(Real.pi + k * (2 * Real.pi)) ≤ v - p → v - p ≤ Real.pi →
    ∃ (j : ℤ), ∀ n, k < n → approachUp n p v = some (v + j * (2 * Real.pi)) ∧ v + j * (2 * Real.pi) - p ≤ Real.pi ∧
      -Real.pi ≤ v + j * (2 * Real.pi) - p := by
  intro k
  induction k with
  | zero =>
    intro v h h'
    have h : -Real.pi ≤ v - p := by simpa using h
    refine ⟨0, fun n hn => ?_⟩
    obtain ⟨n, rfl⟩ : ∃ m, n = m + 1 := ⟨n - 1, by omega⟩
    rw [approachUp, if_neg (not_lt.mpr h)]
    simp [h, h']
  | succ k ih =>
    intro v h h'
    by_cases hv : v - p < -Real.pi
    · obtain ⟨j, hj⟩ := ih (v + 2 * Real.pi) (by push_cast at h; linarith) (by linarith)
      refine ⟨j + 1, fun n hn => ?_⟩
      obtain ⟨n, rfl⟩ : ∃ m, n = m + 1 := ⟨n - 1, by omega⟩
      obtain ⟨e, b, c⟩ := hj n (by omega)
      have e2 : v + 2 * Real.pi + j * (2 * Real.pi) = v + ((j + 1 : ℤ) : ℝ) * (2 * Real.pi) := by push_cast; ring
      rw [approachUp, if_pos hv, e, ← e2]
      exact ⟨rfl, b, c⟩
    · refine ⟨0, fun n hn => ?_⟩
      obtain ⟨n, rfl⟩ : ∃ m, n = m + 1 := ⟨n - 1, by omega⟩
      rw [approachUp, if_neg hv]
      simp [not_lt.mp hv, h']

theorem angleApproach_spec (p v : ℝ) : ∃ (N : Nat) (j : ℤ), (∀ n, N ≤ n → angleApproach n p v = some (v + j * (2 * Real.pi))) ∧
    |v + j * (2 * Real.pi) - p| ≤ Real.pi := by
  have hpi := Real.pi_pos
  obtain ⟨k1, hk1⟩ := exists_nat_ge ((v - p) / (2 * Real.pi))
  have h1 : v - p ≤ Real.pi + k1 * (2 * Real.pi) := by
    rw [div_le_iff₀ (by linarith)] at hk1; linarith
  obtain ⟨j1, hj1⟩ := approachDown_spec p k1 v h1
  obtain ⟨-, b1, -⟩ := hj1 (k1 + 1) (by omega)
  obtain ⟨k2, hk2⟩ := exists_nat_ge (-(v + j1 * (2 * Real.pi) - p) / (2 * Real.pi))
  have h2 : -(Real.pi + k2 * (2 * Real.pi)) ≤ v + j1 * (2 * Real.pi) - p := by
    rw [div_le_iff₀ (by linarith)] at hk2; linarith
  obtain ⟨j2, hj2⟩ := approachUp_spec p k2 _ h2 b1
  refine ⟨k1 + k2 + 1, j1 + j2, ?_, ?_⟩
  · intro n hn
    rw [angleApproach, (hj1 n (by omega)).1, Option.bind_some, (hj2 n (by omega)).1]
    push_cast
    congr 1; ring
  · obtain ⟨-, b, c⟩ := hj2 (k2 + 1) (by omega)
    rw [abs_le]
    push_cast
    constructor <;> linarith

theorem rotationXYZ_turns (v : V3 ℝ) (i j k : ℤ) :
    rotationXYZ ⟨v.x + i * (2 * Real.pi), v.y + j * (2 * Real.pi), v.z + k * (2 * Real.pi)⟩ = rotationXYZ v := by
  simp only [rotationXYZ, xAxisRotationMatrix, yAxisRotationMatrix, zAxisRotationMatrix, Real.cos_add_int_mul_two_pi, Real.sin_add_int_mul_two_pi]

theorem rotationXYZ_alternative (v : V3 ℝ) : rotationXYZ ⟨v.x + Real.pi, Real.pi - v.y, v.z + Real.pi⟩ = rotationXYZ v := by
  simp only [rotationXYZ, xAxisRotationMatrix, yAxisRotationMatrix, zAxisRotationMatrix, Real.cos_add_pi, Real.sin_add_pi, Real.cos_pi_sub, Real.sin_pi_sub]
  generalize Real.cos v.x = a
  generalize Real.sin v.x = b
  generalize Real.cos v.y = c
  generalize Real.sin v.y = d
  generalize Real.cos v.z = e
  generalize Real.sin v.z = f
  ext <;> simp [M44.mul, M44.xRotation, M44.yRotation, M44.zRotation, M44.identity, M44.set]

theorem closest_turn {x : ℝ} (h : |x| ≤ Real.pi) (m : ℤ) : x * x ≤ (x + m * (2 * Real.pi)) * (x + m * (2 * Real.pi)) := by
  have hpi := Real.pi_pos
  rw [abs_le] at h
  by_cases hm : m = 0
  · rw [hm]; simp
  · rcases lt_or_gt_of_ne hm with hm | hm
    · have : (m : ℝ) ≤ -1 := by exact_mod_cast (by omega : m ≤ -1)
      have hy : m * (2 * Real.pi) ≤ -(2 * Real.pi) := by nlinarith
      have := mul_nonneg_of_nonpos_of_nonpos (show m * (2 * Real.pi) ≤ 0 by linarith) (show 2 * x + m * (2 * Real.pi) ≤ 0 by linarith)
      linarith
    · have : (1 : ℝ) ≤ m := by exact_mod_cast (by omega : 1 ≤ m)
      have hy : 2 * Real.pi ≤ m * (2 * Real.pi) := by nlinarith
      have := mul_nonneg (show 0 ≤ m * (2 * Real.pi) by linarith) (show 0 ≤ 2 * x + m * (2 * Real.pi) by linarith)
      linarith

theorem approach3_spec (p v : V3 ℝ) : ∃ (N : Nat) (r : V3 ℝ), (∀ n, N ≤ n → approach3 n p v = some r) ∧
    rotationXYZ r = rotationXYZ v ∧ (∃ i j k : ℤ, r = turned v i j k) ∧ ∀ i j k : ℤ, distanceSq p r ≤ distanceSq p (turned v i j k) := by
  obtain ⟨n1, i, h1, b1⟩ := angleApproach_spec p.x v.x
  obtain ⟨n2, j, h2, b2⟩ := angleApproach_spec p.y v.y
  obtain ⟨n3, k, h3, b3⟩ := angleApproach_spec p.z v.z
  refine ⟨n1 + n2 + n3, turned v i j k, ?_, rotationXYZ_turns v i j k, ⟨i, j, k, rfl⟩, ?_⟩
  · intro n hn
    rw [approach3, h1 n (by omega), h2 n (by omega), h3 n (by omega)]
    rfl
  · intro i' j' k'
    have c1 := closest_turn b1 (i' - i)
    have c2 := closest_turn b2 (j' - j)
    have c3 := closest_turn b3 (k' - k)
    push_cast at c1 c2 c3
    rw [show v.x + i * (2 * Real.pi) - p.x + (i' - i) * (2 * Real.pi) = v.x + i' * (2 * Real.pi) - p.x by ring] at c1
    rw [show v.y + j * (2 * Real.pi) - p.y + (j' - j) * (2 * Real.pi) = v.y + j' * (2 * Real.pi) - p.y by ring] at c2
    rw [show v.z + k * (2 * Real.pi) - p.z + (k' - k) * (2 * Real.pi) = v.z + k' * (2 * Real.pi) - p.z by ring] at c3
    simp only [distanceSq, turned]
    linarith

theorem alternative_turned (v : V3 ℝ) (i j k : ℤ) (i' j' k' : ℤ) : ∃ a b c : ℤ,
    turned ⟨v.x + Real.pi, Real.pi - v.y, v.z + Real.pi⟩ i' j' k' =
      turned ⟨(turned v i j k).x + Real.pi, Real.pi - (turned v i j k).y, (turned v i j k).z + Real.pi⟩ a b c := by
  refine ⟨i' - i, j' + j, k' - k, ?_⟩
  simp only [turned, V3.mk.injEq]
  push_cast
  refine ⟨?_, ?_, ?_⟩ <;> ring

theorem patchEuler_spec (p v : V3 ℝ) : ∃ (N : Nat) (r : V3 ℝ), (∀ n, N ≤ n → patchEuler n p v = some r) ∧ rotationXYZ r = rotationXYZ v ∧
    ∀ i j k : ℤ, distanceSq p r ≤ distanceSq p (turned v i j k) ∧ distanceSq p r ≤ distanceSq p (turned ⟨v.x + Real.pi, Real.pi - v.y, v.z + Real.pi⟩ i j k) := by
  obtain ⟨n1, r, h1, e1, ⟨i, j, k, hr⟩, m1⟩ := approach3_spec p v
  obtain ⟨n2, r', h2, e2, -, m2⟩ := approach3_spec p ⟨r.x + Real.pi, Real.pi - r.y, r.z + Real.pi⟩
  rw [rotationXYZ_alternative, e1] at e2
  have m2' : ∀ i' j' k' : ℤ, distanceSq p r' ≤ distanceSq p (turned ⟨v.x + Real.pi, Real.pi - v.y, v.z + Real.pi⟩ i' j' k') := by
    intro i' j' k'
    obtain ⟨a, b, c, e⟩ := alternative_turned v i j k i' j' k'
    rw [e, ← hr]
    exact m2 a b c
  refine ⟨n1 + n2, if distanceSq p r' < distanceSq p r then r' else r, ?_, ?_, ?_⟩
  · intro n hn
    rw [patchEuler, h1 n (by omega), Option.bind_some, h2 n (by omega)]
    rfl
  · split
    · exact e2
    · exact e1
  · intro i' j' k'
    have a1 := m1 i' j' k'
    have a2 := m2' i' j' k'
    split
    · exact ⟨by linarith, a2⟩
    · exact ⟨a1, by linarith⟩

theorem cos_atan2_scaled {x y c : ℝ} (hc : 0 < c) (h : x * x + y * y = c * c) : Real.cos (atan2 y x) = x / c ∧ Real.sin (atan2 y x) = y / c := by
  have hn : ‖(⟨x, y⟩ : ℂ)‖ = c := by
    rw [Complex.norm_def, Complex.normSq_mk, h, Real.sqrt_mul_self hc.le]
  have h0 : (⟨x, y⟩ : ℂ) ≠ 0 := by
    intro e
    rw [e] at hn
    simp at hn
    linarith
  constructor
  · rw [atan2, Complex.cos_arg h0, hn]
  · rw [atan2, Complex.sin_arg, hn]

/-- The rotation in terms of the sines and cosines. -/
theorem rotationXYZ_eq {v : V3 ℝ} {cx sx cy sy cz sz : ℝ} (h1 : Real.cos v.x = cx) (h2 : Real.sin v.x = sx) (h3 : Real.cos v.y = cy) (h4 : Real.sin v.y = sy)
    (h5 : Real.cos v.z = cz) (h6 : Real.sin v.z = sz) : rotationXYZ v =
      ⟨cy * cz, sx * sy * cz + cx * sz, -(cx * sy * cz) + sx * sz, 0, -(cy * sz), -(sx * sy * sz) + cx * cz, cx * sy * sz + sx * cz, 0,
        sy, -(sx * cy), cx * cy, 0, 0, 0, 0, 1⟩ := by
  simp only [rotationXYZ, xAxisRotationMatrix, yAxisRotationMatrix, zAxisRotationMatrix, h1, h2, h3, h4, h5, h6]
  ext <;> simp [M44.mul, M44.xRotation, M44.yRotation, M44.zRotation, M44.identity, M44.set]

/-- If the sines and cosines fit the entries looked at, the rest fits too. -/
theorem ortho_angles {r : M44 ℝ} (h : Ortho r) (ha : r.Affine) (ht : r.m30 = 0 ∧ r.m31 = 0 ∧ r.m32 = 0) {cx sx c cz sz : ℝ} (hc : 0 < c)
    (hcc : c * c + r.m20 * r.m20 = 1) (h1 : cx = r.m22 / c) (h2 : sx = -r.m21 / c) (h3 : cz = r.m00 / c) (h4 : sz = -r.m10 / c) :
    (⟨c * cz, sx * r.m20 * cz + cx * sz, -(cx * r.m20 * cz) + sx * sz, 0, -(c * sz), -(sx * r.m20 * sz) + cx * cz, cx * r.m20 * sz + sx * cz, 0,
        r.m20, -(sx * c), cx * c, 0, 0, 0, 0, 1⟩ : M44 ℝ) = r := by
  obtain ⟨e00, e01, e02, e10, e11, e12, e20, e21, e22, row, col, col1⟩ := h
  obtain ⟨a1, a2, a3, a4⟩ := ha
  obtain ⟨t1, t2, t3⟩ := ht
  have hne : c ≠ 0 := hc.ne'
  have h01 : c * c * r.m01 = -r.m21 * r.m20 * r.m00 - r.m22 * r.m10 := by grind
  have h02 : c * c * r.m02 = -r.m22 * r.m20 * r.m00 + r.m21 * r.m10 := by grind
  have h11 : c * c * r.m11 = -r.m21 * r.m20 * r.m10 + r.m22 * r.m00 := by grind
  have h12 : c * c * r.m12 = -r.m22 * r.m20 * r.m10 - r.m21 * r.m00 := by grind
  subst h1 h2 h3 h4
  ext <;> simp only [a1, a2, a3, a4, t1, t2, t3]
  all_goals try field_simp
  all_goals linarith

theorem north_angle {x w : ℝ} (h : w * w + x * x = 1 / 2) :
    Real.cos (2 * atan2 x w) = 2 * (w * w - x * x) ∧ Real.sin (2 * atan2 x w) = 4 * (x * w) := by
  have hq : √(1 / 2 : ℝ) * √(1 / 2) = 1 / 2 := Real.mul_self_sqrt (by norm_num)
  have hp : 0 < √(1 / 2 : ℝ) := Real.sqrt_pos.mpr (by norm_num)
  generalize √(1 / 2 : ℝ) = k at hq hp
  obtain ⟨x1, x2⟩ := cos_atan2_scaled hp (by rw [h, hq])
  have hk : k ≠ 0 := hp.ne'
  have e1 : w / k * (w / k) = 2 * (w * w) := by
    rw [div_mul_div_comm, hq]; ring
  have e2 : x / k * (w / k) = 2 * (x * w) := by
    rw [div_mul_div_comm, hq]; ring
  constructor
  · rw [Real.cos_two_mul, x1, pow_two, e1]; linarith
  · rw [Real.sin_two_mul, x1, x2, mul_assoc, e2]; ring

theorem toEuler_north {q : Quat} (h : q.Unit) (hy : 2 * (q.x * q.z + q.y * q.w) = 1) : rotationXYZ q.toEuler = q.toMatrix := by
  have hm := toMatrix_unit h
  have e : q.toEuler = ⟨2 * atan2 q.x q.w, Real.pi / 2, 0⟩ := by
    have hc : 2 * (q.x * q.z + q.y * q.w) > 1 - tolerance := by rw [tolerance, hy]; norm_num
    unfold Quat.toEuler
    exact if_pos hc
  rw [e, hm]
  rw [Quat.Unit] at h
  clear hm e
  obtain ⟨x, y, z, w⟩ := q
  simp only at *
  have h0 : (x - z) * (x - z) + (y - w) * (y - w) = 0 := by linear_combination h - hy
  have hxz := mul_self_nonneg (x - z)
  have hyw := mul_self_nonneg (y - w)
  have h1 : z = x := by
    have : (x - z) * (x - z) = 0 := by linarith
    linarith [mul_self_eq_zero.mp this]
  have h2 : y = w := by
    have : (y - w) * (y - w) = 0 := by linarith
    linarith [mul_self_eq_zero.mp this]
  subst h1 h2
  obtain ⟨c1, c2⟩ := north_angle (x := z) (w := y) (by linarith)
  rw [rotationXYZ_eq (v := ⟨2 * atan2 z y, Real.pi / 2, 0⟩) c1 c2 Real.cos_pi_div_two Real.sin_pi_div_two Real.cos_zero Real.sin_zero]
  clear c1 c2 h0 hxz hyw
  ext <;> simp only <;> linarith

end Verif.Geo
