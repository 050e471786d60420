import Verif.QuatLemmas

/-!
# Quaternions: theorems (C78)

`toH` is the quaternion in the sense of Mathlib, with Hamilton's product.
-/

namespace Verif.Geo

/-- C78: the matrix of a quaternion other than 0 is rigid and rotates as the quaternion does in mathematics. -/
theorem quat_matrix {q : Quat} (h : q ≠ ⟨0, 0, 0, 0⟩) (v : V3 ℝ) : Rigid q.toMatrix ∧ (q.toMatrix.transformCoordinate v).toH = q.toH * v.toH * q.toH⁻¹ ∧
    q.toMatrix.m30 = 0 ∧ q.toMatrix.m31 = 0 ∧ q.toMatrix.m32 = 0 := by
  have hl := quat_length_pos h
  refine ⟨toMatrix_rigid hl, toMatrix_rotates hl v, by simp [Quat.toMatrix, M44.identity, M44.set], by simp [Quat.toMatrix, M44.identity, M44.set],
    by simp [Quat.toMatrix, M44.identity, M44.set]⟩

/-- C78: the product is Hamilton's with its factors exchanged, which makes it the concatenation of rotations: first the left one, then the right one. -/
theorem quat_product {p q : Quat} (hp : p ≠ ⟨0, 0, 0, 0⟩) (hq : q ≠ ⟨0, 0, 0, 0⟩) (v : V3 ℝ) : (p.mul q).toH = q.toH * p.toH ∧
    (p.mul q).toMatrix.transformCoordinate v = q.toMatrix.transformCoordinate (p.toMatrix.transformCoordinate v) := by
  refine ⟨toH_mul p q, ?_⟩
  rw [toMatrix_mul (quat_length_pos hp) (quat_length_pos hq)]
  exact (transform_product (toMatrix_rigid (quat_length_pos hp)).affine v).1

/-- C78: the quaternion of a unit axis and an angle gives the rotation around the axis. -/
theorem quat_axis {a : V3 ℝ} (h : a.lengthSquared = 1) (t : ℝ) : (Quat.ofAxisAngle a t).Unit ∧ (Quat.ofAxisAngle a t).toMatrix = axisRotationMatrix a t := by
  refine ⟨ofAxisAngle_unit h t, ?_⟩
  rw [ofAxisAngle_matrix h, axisRotationMatrix, h, equivalent_refl, if_pos rfl]

/-- C78: the quaternion of Euler angles gives the rotations around X, Y and Z multiplied in this order. -/
theorem quat_euler (x y z : ℝ) : (Quat.euler x y z).toMatrix = rotationXYZ ⟨x, y, z⟩ ∧ (Quat.euler x y z).Unit := by
  have hx := quat_axis (a := ⟨1, 0, 0⟩) (by simp [V3.lengthSquared]) x
  have hy := quat_axis (a := ⟨0, 1, 0⟩) (by simp [V3.lengthSquared]) y
  have hz := quat_axis (a := ⟨0, 0, 1⟩) (by simp [V3.lengthSquared]) z
  have lx := unit_length hx.1
  have ly := unit_length hy.1
  have lz := unit_length hz.1
  constructor
  · rw [Quat.euler, toMatrix_mul (by rw [lengthSquared_mul]; exact mul_ne_zero lz ly) lx, toMatrix_mul lz ly, hx.2, hy.2, hz.2, axisRotationMatrix_x,
      axisRotationMatrix_y, axisRotationMatrix_z, rotationXYZ, (matrix_algebra _ _ _).1]
  · have : (Quat.euler x y z).lengthSquared = 1 := by
      rw [Quat.euler, lengthSquared_mul, lengthSquared_mul, show (Quat.ofAxisAngle ⟨1, 0, 0⟩ x).lengthSquared = 1 from hx.1,
        show (Quat.ofAxisAngle ⟨0, 1, 0⟩ y).lengthSquared = 1 from hy.1, show (Quat.ofAxisAngle ⟨0, 0, 1⟩ z).lengthSquared = 1 from hz.1]
      norm_num
    exact this

/-- C78: the quaternion of a rotation matrix is a unit quaternion and gives the matrix back. -/
theorem matrix_quat_matrix {m : M44 ℝ} (h : Rigid m) (ht : m.m30 = 0 ∧ m.m31 = 0 ∧ m.m32 = 0) : (Quat.ofMatrix m).Unit ∧ (Quat.ofMatrix m).toMatrix = m :=
  products_matrix (ofMatrix_products (ortho_of h.x h.y h.z h.xy h.xz h.yz (rigid_det3 h))) h.affine ht

/-- C78: the quaternion of the matrix of a unit quaternion is that quaternion or its negative, which stands for the same rotation. -/
theorem quat_matrix_quat {q : Quat} (h : q.Unit) : Quat.ofMatrix q.toMatrix = q ∨ Quat.ofMatrix q.toMatrix = ⟨-q.x, -q.y, -q.z, -q.w⟩ := by
  have hr := toMatrix_rigid (unit_length h)
  exact products_unique (ofMatrix_products (ortho_of hr.x hr.y hr.z hr.xy hr.xz hr.yz (rigid_det3 hr))) (products_of_unit h)

/-- C78: what the product of a unit quaternion and a vector is: the vector rotated backwards. -/
theorem quat_vector_partial {q : Quat} (h : q.Unit) (v : V3 ℝ) : q.rotate v = q.toMatrix.transposed.transformCoordinate v := by
  rw [toMatrix_unit h]
  rw [Quat.Unit] at h
  ext <;> simp only [Quat.rotate, Quat.mul, Quat.conj, M44.transposed, M44.transformCoordinate] <;> grind

/-- C78: a unit quaternion times a vector is not the rotated vector. -/
theorem quat_vector_violated : ∃ (q : Quat) (v : V3 ℝ), q.Unit ∧ (q.toMatrix.transformCoordinate v) = ⟨0, 7 / 25, 24 / 25⟩ ∧ q.rotate v = ⟨0, 7 / 25, -24 / 25⟩ := by
  have hu : (⟨3 / 5, 0, 0, 4 / 5⟩ : Quat).Unit := by norm_num [Quat.Unit]
  refine ⟨⟨3 / 5, 0, 0, 4 / 5⟩, ⟨0, 1, 0⟩, hu, ?_, ?_⟩
  · rw [toMatrix_unit hu]; norm_num [M44.transformCoordinate]
  · norm_num [Quat.rotate, Quat.mul, Quat.conj]

example : (⟨1 / 2, 1 / 2, 1 / 2, 1 / 2⟩ : Quat).Unit ∧ (⟨1 / 2, 1 / 2, 1 / 2, 1 / 2⟩ : Quat) ≠ ⟨0, 0, 0, 0⟩ ∧ Rigid (⟨1 / 2, 1 / 2, 1 / 2, 1 / 2⟩ : Quat).toMatrix := by
  have h : (⟨1 / 2, 1 / 2, 1 / 2, 1 / 2⟩ : Quat).Unit := by norm_num [Quat.Unit]
  exact ⟨h, by norm_num [Quat.mk.injEq], toMatrix_rigid (unit_length h)⟩

end Verif.Geo
