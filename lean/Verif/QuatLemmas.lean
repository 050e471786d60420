import Verif.QuatSpec
import Verif.GeoDecomp
import Verif.GeoLook

/-! # Quaternions: lemmas -/

namespace Verif.Geo

@[simp] theorem toH_re (a : Quat) : a.toH.re = a.w := rfl
@[simp] theorem toH_imI (a : Quat) : a.toH.imI = a.x := rfl
@[simp] theorem toH_imJ (a : Quat) : a.toH.imJ = a.y := rfl
@[simp] theorem toH_imK (a : Quat) : a.toH.imK = a.z := rfl
@[simp] theorem vtoH_re (a : V3 ℝ) : a.toH.re = 0 := rfl
@[simp] theorem vtoH_imI (a : V3 ℝ) : a.toH.imI = a.x := rfl
@[simp] theorem vtoH_imJ (a : V3 ℝ) : a.toH.imJ = a.y := rfl
@[simp] theorem vtoH_imK (a : V3 ℝ) : a.toH.imK = a.z := rfl

theorem toH_mul (a b : Quat) : (a.mul b).toH = b.toH * a.toH := by
  ext <;> simp [Quat.mul] <;> ring

theorem toH_conj (a : Quat) : a.conj.toH = star a.toH := by
  ext <;> simp [Quat.conj]

theorem toMatrix_unit {a : Quat} (h : a.Unit) : a.toMatrix = ⟨1 - 2 * (a.y * a.y + a.z * a.z), 2 * (a.x * a.y + a.w * a.z), 2 * (a.x * a.z - a.w * a.y), 0,
    2 * (a.x * a.y - a.w * a.z), 1 - 2 * (a.x * a.x + a.z * a.z), 2 * (a.y * a.z + a.w * a.x), 0,
    2 * (a.x * a.z + a.w * a.y), 2 * (a.y * a.z - a.w * a.x), 1 - 2 * (a.x * a.x + a.y * a.y), 0, 0, 0, 0, 1⟩ := by
  rw [Quat.Unit] at h
  simp only [Quat.toMatrix, h, M44.identity, M44.set]
  ext <;> simp <;> ring

theorem toMatrix_den {a : Quat} (h : a.lengthSquared ≠ 0) : a.toMatrix =
    ⟨1 - 2 * (a.y * a.y + a.z * a.z) / a.lengthSquared, 2 * (a.x * a.y + a.w * a.z) / a.lengthSquared, 2 * (a.x * a.z - a.w * a.y) / a.lengthSquared, 0,
    2 * (a.x * a.y - a.w * a.z) / a.lengthSquared, 1 - 2 * (a.x * a.x + a.z * a.z) / a.lengthSquared, 2 * (a.y * a.z + a.w * a.x) / a.lengthSquared, 0,
    2 * (a.x * a.z + a.w * a.y) / a.lengthSquared, 2 * (a.y * a.z - a.w * a.x) / a.lengthSquared, 1 - 2 * (a.x * a.x + a.y * a.y) / a.lengthSquared, 0,
    0, 0, 0, 1⟩ := by
  rw [Quat.lengthSquared] at h ⊢
  simp only [Quat.toMatrix, if_neg h, M44.identity, M44.set]
  ext <;> simp <;> ring

theorem quat_length_pos {a : Quat} (h : a ≠ ⟨0, 0, 0, 0⟩) : a.lengthSquared ≠ 0 := by
  intro e
  apply h
  rw [Quat.lengthSquared] at e
  have hx := mul_self_nonneg a.x
  have hy := mul_self_nonneg a.y
  have hz := mul_self_nonneg a.z
  have hw := mul_self_nonneg a.w
  ext
  · exact mul_self_eq_zero.mp (by linarith)
  · exact mul_self_eq_zero.mp (by linarith)
  · exact mul_self_eq_zero.mp (by linarith)
  · exact mul_self_eq_zero.mp (by linarith)

theorem lengthSquared_mul (a b : Quat) : (a.mul b).lengthSquared = a.lengthSquared * b.lengthSquared := by
  simp only [Quat.lengthSquared, Quat.mul]; ring

/-- The matrix of a quaternion is Hamilton's rotation. -/
theorem toMatrix_rotates {a : Quat} (h : a.lengthSquared ≠ 0) (v : V3 ℝ) : (a.toMatrix.transformCoordinate v).toH = a.toH * v.toH * a.toH⁻¹ := by
  have h0 : a.toH ≠ 0 := by
    intro e
    apply h
    have e1 : a.w = 0 := congrArg (fun q : Quaternion ℝ => q.re) e
    have e2 : a.x = 0 := congrArg (fun q : Quaternion ℝ => q.imI) e
    have e3 : a.y = 0 := congrArg (fun q : Quaternion ℝ => q.imJ) e
    have e4 : a.z = 0 := congrArg (fun q : Quaternion ℝ => q.imK) e
    simp [Quat.lengthSquared, e1, e2, e3, e4]
  rw [eq_mul_inv_iff_mul_eq₀ h0, toMatrix_den h]
  ext <;> simp [M44.transformCoordinate] <;> field_simp
  all_goals (try simp only [Quat.lengthSquared])
  all_goals ring

theorem toMatrix_rigid {a : Quat} (h : a.lengthSquared ≠ 0) : Rigid a.toMatrix := by
  have e : a.lengthSquared = a.x * a.x + a.y * a.y + a.z * a.z + a.w * a.w := rfl
  rw [toMatrix_den h]
  generalize a.lengthSquared = l at *
  refine ⟨by simp [M44.Affine], ?_, ?_, ?_, ?_, ?_, ?_, ?_⟩
  all_goals simp only [M44.determinant, det3x3, det2x2]; field_simp
  all_goals subst e; ring

theorem toMatrix_mul {a b : Quat} (ha : a.lengthSquared ≠ 0) (hb : b.lengthSquared ≠ 0) : (a.mul b).toMatrix = b.toMatrix.mul a.toMatrix := by
  have hab : (a.mul b).lengthSquared ≠ 0 := by rw [lengthSquared_mul]; exact mul_ne_zero ha hb
  rw [toMatrix_den ha, toMatrix_den hb, toMatrix_den hab, lengthSquared_mul]
  have ea : a.lengthSquared = a.x * a.x + a.y * a.y + a.z * a.z + a.w * a.w := rfl
  have eb : b.lengthSquared = b.x * b.x + b.y * b.y + b.z * b.z + b.w * b.w := rfl
  generalize a.lengthSquared = l at *
  generalize b.lengthSquared = k at *
  ext <;> simp only [M44.mul, Quat.mul] <;> field_simp
  all_goals subst ea eb; ring

theorem ofAxisAngle_unit {v : V3 ℝ} (h : v.lengthSquared = 1) (t : ℝ) : (Quat.ofAxisAngle v t).Unit := by
  have := cos_sin (t / 2)
  rw [V3.lengthSquared] at h
  simp only [Quat.Unit, Quat.ofAxisAngle]
  linear_combination Real.sin (t / 2) * Real.sin (t / 2) * h + this

theorem unit_length {a : Quat} (h : a.Unit) : a.lengthSquared ≠ 0 := by
  rw [Quat.lengthSquared, h]; exact one_ne_zero

theorem half_angle (t : ℝ) : Real.cos t = 1 - 2 * (Real.sin (t / 2) * Real.sin (t / 2)) ∧ Real.sin t = 2 * (Real.sin (t / 2) * Real.cos (t / 2)) := by
  have h : t = 2 * (t / 2) := by ring
  constructor
  · rw [congrArg Real.cos h, Real.cos_two_mul]; linear_combination 2 * Real.sin_sq_add_cos_sq (t / 2)
  · rw [congrArg Real.sin h, Real.sin_two_mul]; ring

theorem ofAxisAngle_matrix {v : V3 ℝ} (h : v.lengthSquared = 1) (t : ℝ) :
    (Quat.ofAxisAngle v t).toMatrix = M44.axisRotation v (Real.cos t) (Real.sin t) := by
  rw [toMatrix_unit (ofAxisAngle_unit h t)]
  obtain ⟨h1, h2⟩ := half_angle t
  rw [h1, h2]
  simp only [Quat.ofAxisAngle]
  rw [V3.lengthSquared] at h
  generalize Real.sin (t / 2) = s
  generalize Real.cos (t / 2) = c
  ext <;> simp only [M44.axisRotation] <;> grind

/-! ## From matrices -/

/-- A matrix whose entries come from the products of the components of a quaternion. -/
structure Products (a : Quat) (m : M44 ℝ) : Prop where
  ww : 4 * (a.w * a.w) = 1 + m.m00 + m.m11 + m.m22
  xx : 4 * (a.x * a.x) = 1 + m.m00 - m.m11 - m.m22
  yy : 4 * (a.y * a.y) = 1 - m.m00 + m.m11 - m.m22
  zz : 4 * (a.z * a.z) = 1 - m.m00 - m.m11 + m.m22
  wx : 4 * (a.w * a.x) = m.m12 - m.m21
  wy : 4 * (a.w * a.y) = m.m20 - m.m02
  wz : 4 * (a.w * a.z) = m.m01 - m.m10
  xy : 4 * (a.x * a.y) = m.m01 + m.m10
  xz : 4 * (a.x * a.z) = m.m20 + m.m02
  yz : 4 * (a.y * a.z) = m.m12 + m.m21

theorem products_matrix {a : Quat} {m : M44 ℝ} (h : Products a m) (ha : m.Affine) (ht : m.m30 = 0 ∧ m.m31 = 0 ∧ m.m32 = 0) : a.Unit ∧ a.toMatrix = m := by
  obtain ⟨ww, xx, yy, zz, wx, wy, wz, xy, xz, yz⟩ := h
  have hu : a.Unit := by rw [Quat.Unit]; linarith
  refine ⟨hu, ?_⟩
  rw [toMatrix_unit hu]
  obtain ⟨a1, a2, a3, a4⟩ := ha
  obtain ⟨t1, t2, t3⟩ := ht
  ext <;> simp only [a1, a2, a3, a4, t1, t2, t3] <;> linarith

theorem products_of_unit {a : Quat} (h : a.Unit) : Products a a.toMatrix := by
  rw [toMatrix_unit h]
  rw [Quat.Unit] at h
  constructor <;> simp only <;> linarith

theorem products_unique {a b : Quat} {m : M44 ℝ} (ha : Products a m) (hb : Products b m) : a = b ∨ a = ⟨-b.x, -b.y, -b.z, -b.w⟩ := by
  obtain ⟨ww, xx, yy, zz, wx, wy, wz, xy, xz, yz⟩ := ha
  obtain ⟨ww', xx', yy', zz', wx', wy', wz', xy', xz', yz'⟩ := hb
  have key : ∀ p q : ℝ, 4 * (p * p) = 4 * (q * q) → p = q ∨ p = -q := fun p q h => mul_self_eq_mul_self_iff.mp (by linarith)
  have cancel : ∀ {p q u : ℝ}, p ≠ 0 → 4 * (p * q) = 4 * (p * u) → q = u := fun hp h => mul_left_cancel₀ hp (by linarith)
  have cancel' : ∀ {p q u : ℝ}, p ≠ 0 → 4 * (p * q) = 4 * (-p * u) → q = -u := fun hp h => mul_left_cancel₀ hp (by linarith)
  obtain ⟨ax, ay, az, aw⟩ := a
  obtain ⟨bx, by', bz, bw⟩ := b
  simp only [Quat.mk.injEq] at *
  by_cases hw : aw = 0
  · by_cases hx : ax = 0
    · by_cases hy : ay = 0
      · subst hw hx hy
        have h1 : bw = 0 := by have := key 0 bw (by linarith); rcases this with h | h <;> linarith
        have h2 : bx = 0 := by have := key 0 bx (by linarith); rcases this with h | h <;> linarith
        have h3 : by' = 0 := by have := key 0 by' (by linarith); rcases this with h | h <;> linarith
        subst h1 h2 h3
        rcases key az bz (by linarith) with h | h
        · left; exact ⟨rfl, rfl, h, rfl⟩
        · right; simp [h]
      · rcases key ay by' (by linarith) with h | h
        · subst h; left
          exact ⟨cancel hy (by linarith), rfl, cancel hy (by linarith), cancel hy (by linarith)⟩
        · have : by' = -ay := by linarith
          subst this; right
          exact ⟨cancel' hy (by linarith), by ring, cancel' hy (by linarith), cancel' hy (by linarith)⟩
    · rcases key ax bx (by linarith) with h | h
      · subst h; left
        exact ⟨rfl, cancel hx (by linarith), cancel hx (by linarith), cancel hx (by linarith)⟩
      · have : bx = -ax := by linarith
        subst this; right
        exact ⟨by ring, cancel' hx (by linarith), cancel' hx (by linarith), cancel' hx (by linarith)⟩
  · rcases key aw bw (by linarith) with h | h
    · subst h; left
      exact ⟨cancel hw (by linarith), cancel hw (by linarith), cancel hw (by linarith), rfl⟩
    · have : bw = -aw := by linarith
      subst this; right
      exact ⟨cancel' hw (by linarith), cancel' hw (by linarith), cancel' hw (by linarith), by ring⟩

theorem prod_other {n n' k d r : ℝ} (hr : r * r = d) (hd : r ≠ 0) (h : n * n' = d * k) : 4 * (n / (r * 2) * (n' / (r * 2))) = k := by
  subst hr
  field_simp
  linarith

theorem prod_pivot {n r : ℝ} (hd : r ≠ 0) : 4 * (1 / 4 * (r * 2) * (n / (r * 2))) = n := by
  field_simp

theorem prod_self {d r : ℝ} (hr : r * r = d) : 4 * (1 / 4 * (r * 2) * (1 / 4 * (r * 2))) = d := by
  rw [← hr]; ring

theorem ofMatrix_products {m : M44 ℝ} (h : Ortho m) : Products (Quat.ofMatrix m) m := by
  obtain ⟨e00, e01, e02, e10, e11, e12, e20, e21, e22, row, col, col1⟩ := h
  -- products of the entries of the symmetric matrix
  have wxwy : (m.m12 - m.m21) * (m.m20 - m.m02) = (1 + m.m00 + m.m11 + m.m22) * (m.m01 + m.m10) := by grind
  have wxwz : (m.m12 - m.m21) * (m.m01 - m.m10) = (1 + m.m00 + m.m11 + m.m22) * (m.m20 + m.m02) := by grind
  have wywz : (m.m20 - m.m02) * (m.m01 - m.m10) = (1 + m.m00 + m.m11 + m.m22) * (m.m12 + m.m21) := by grind
  have wxwx : (m.m12 - m.m21) * (m.m12 - m.m21) = (1 + m.m00 + m.m11 + m.m22) * (1 + m.m00 - m.m11 - m.m22) := by grind
  have wywy : (m.m20 - m.m02) * (m.m20 - m.m02) = (1 + m.m00 + m.m11 + m.m22) * (1 - m.m00 + m.m11 - m.m22) := by grind
  have wzwz : (m.m01 - m.m10) * (m.m01 - m.m10) = (1 + m.m00 + m.m11 + m.m22) * (1 - m.m00 - m.m11 + m.m22) := by grind
  have xyxy : (m.m01 + m.m10) * (m.m01 + m.m10) = (1 + m.m00 - m.m11 - m.m22) * (1 - m.m00 + m.m11 - m.m22) := by grind
  have xzxz : (m.m20 + m.m02) * (m.m20 + m.m02) = (1 + m.m00 - m.m11 - m.m22) * (1 - m.m00 - m.m11 + m.m22) := by grind
  have yzyz : (m.m12 + m.m21) * (m.m12 + m.m21) = (1 - m.m00 + m.m11 - m.m22) * (1 - m.m00 - m.m11 + m.m22) := by grind
  have x1 : (m.m12 - m.m21) * (m.m01 + m.m10) = (1 + m.m00 - m.m11 - m.m22) * (m.m20 - m.m02) := by grind
  have x2 : (m.m12 - m.m21) * (m.m20 + m.m02) = (1 + m.m00 - m.m11 - m.m22) * (m.m01 - m.m10) := by grind
  have x3 : (m.m01 + m.m10) * (m.m20 + m.m02) = (1 + m.m00 - m.m11 - m.m22) * (m.m12 + m.m21) := by grind
  have y1 : (m.m20 - m.m02) * (m.m01 + m.m10) = (1 - m.m00 + m.m11 - m.m22) * (m.m12 - m.m21) := by grind
  have y2 : (m.m20 - m.m02) * (m.m12 + m.m21) = (1 - m.m00 + m.m11 - m.m22) * (m.m01 - m.m10) := by grind
  have y3 : (m.m01 + m.m10) * (m.m12 + m.m21) = (1 - m.m00 + m.m11 - m.m22) * (m.m20 + m.m02) := by grind
  have z1 : (m.m01 - m.m10) * (m.m20 + m.m02) = (1 - m.m00 - m.m11 + m.m22) * (m.m12 - m.m21) := by grind
  have z2 : (m.m01 - m.m10) * (m.m12 + m.m21) = (1 - m.m00 - m.m11 + m.m22) * (m.m20 - m.m02) := by grind
  have z3 : (m.m20 + m.m02) * (m.m12 + m.m21) = (1 - m.m00 - m.m11 + m.m22) * (m.m01 + m.m10) := by grind
  clear e00 e01 e02 e10 e11 e12 e20 e21 e22 row col col1
  generalize hx : 1 + m.m00 - m.m11 - m.m22 = X at *
  generalize hy : 1 - m.m00 + m.m11 - m.m22 = Y at *
  generalize hz : 1 - m.m00 - m.m11 + m.m22 = Z at *
  generalize hw : 1 + m.m00 + m.m11 + m.m22 = W at *
  have hy' : 1 + m.m11 - m.m00 - m.m22 = Y := by linarith
  have hz' : 1 + m.m22 - m.m00 - m.m11 = Z := by linarith
  have hsum : X + Y + Z + W = 4 := by linarith
  have hWX : 0 ≤ W * X := by rw [← wxwx]; exact mul_self_nonneg _
  have hWY : 0 ≤ W * Y := by rw [← wywy]; exact mul_self_nonneg _
  have hWZ : 0 ≤ W * Z := by rw [← wzwz]; exact mul_self_nonneg _
  have hXY : 0 ≤ X * Y := by rw [← xyxy]; exact mul_self_nonneg _
  have hXZ : 0 ≤ X * Z := by rw [← xzxz]; exact mul_self_nonneg _
  have hYZ : 0 ≤ Y * Z := by rw [← yzyz]; exact mul_self_nonneg _
  have hX : 0 ≤ X := by
    by_contra hn
    have hn := not_le.mp hn
    have := nonpos_of_mul_nonneg_right hXY hn
    have := nonpos_of_mul_nonneg_right hXZ hn
    have : W ≤ 0 := nonpos_of_mul_nonneg_right (by linarith : 0 ≤ X * W) hn
    linarith
  have hY : 0 ≤ Y := by
    by_contra hn
    have hn := not_le.mp hn
    have : X ≤ 0 := nonpos_of_mul_nonneg_right (by linarith : 0 ≤ Y * X) hn
    have := nonpos_of_mul_nonneg_right hYZ hn
    have : W ≤ 0 := nonpos_of_mul_nonneg_right (by linarith : 0 ≤ Y * W) hn
    linarith
  have hZ : 0 ≤ Z := by
    by_contra hn
    have hn := not_le.mp hn
    have : X ≤ 0 := nonpos_of_mul_nonneg_right (by linarith : 0 ≤ Z * X) hn
    have : Y ≤ 0 := nonpos_of_mul_nonneg_right (by linarith : 0 ≤ Z * Y) hn
    have : W ≤ 0 := nonpos_of_mul_nonneg_right (by linarith : 0 ≤ Z * W) hn
    linarith
  have root : ∀ {d : ℝ}, 0 < d → √d * √d = d ∧ √d ≠ 0 := fun hd => ⟨Real.mul_self_sqrt hd.le, (Real.sqrt_pos.mpr hd).ne'⟩
  have order : ∀ p q : ℝ, 4 * (p * q) = 4 * (q * p) := fun p q => by ring
  rw [Quat.ofMatrix]
  simp only [hx, hy', hz', hw]
  by_cases c1 : W > 1 / 100000
  · rw [if_pos c1]
    obtain ⟨r1, r2⟩ := root (show 0 < W by linarith)
    constructor <;> simp only [hx, hy, hz, hw, mul_comm (√W * 2) (1 / 4)]
    · exact prod_self r1
    · exact prod_other r1 r2 wxwx
    · exact prod_other r1 r2 wywy
    · exact prod_other r1 r2 wzwz
    · exact prod_pivot r2
    · exact prod_pivot r2
    · exact prod_pivot r2
    · exact prod_other r1 r2 wxwy
    · exact prod_other r1 r2 wxwz
    · exact prod_other r1 r2 wywz
  rw [if_neg c1]
  by_cases c2 : m.m00 > m.m11
  · rw [if_pos c2]
    obtain ⟨r1, r2⟩ := root (show 0 < X by linarith)
    constructor <;> simp only [hx, hy, hz, hw]
    · exact prod_other r1 r2 (by linarith)
    · exact prod_self r1
    · exact prod_other r1 r2 (by linarith)
    · exact prod_other r1 r2 (by linarith)
    · rw [order]; exact prod_pivot r2
    · exact prod_other r1 r2 x1
    · exact prod_other r1 r2 x2
    · exact prod_pivot r2
    · exact prod_pivot r2
    · exact prod_other r1 r2 x3
  rw [if_neg c2]
  by_cases c3 : m.m11 > m.m22
  · rw [if_pos c3]
    obtain ⟨r1, r2⟩ := root (show 0 < Y by linarith)
    constructor <;> simp only [hx, hy, hz, hw]
    · exact prod_other r1 r2 (by linarith)
    · exact prod_other r1 r2 (by linarith)
    · exact prod_self r1
    · exact prod_other r1 r2 (by linarith)
    · exact prod_other r1 r2 y1
    · rw [order]; exact prod_pivot r2
    · exact prod_other r1 r2 y2
    · rw [order]; exact prod_pivot r2
    · exact prod_other r1 r2 y3
    · exact prod_pivot r2
  rw [if_neg c3]
  obtain ⟨r1, r2⟩ := root (show 0 < Z by linarith)
  constructor <;> simp only [hx, hy, hz, hw]
  · exact prod_other r1 r2 (by linarith)
  · exact prod_other r1 r2 (by linarith)
  · exact prod_other r1 r2 (by linarith)
  · exact prod_self r1
  · exact prod_other r1 r2 z1
  · exact prod_other r1 r2 z2
  · rw [order]; exact prod_pivot r2
  · exact prod_other r1 r2 z3
  · rw [order]; exact prod_pivot r2
  · rw [order]; exact prod_pivot r2

end Verif.Geo
