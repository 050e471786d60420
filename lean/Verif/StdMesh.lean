import Verif.StdScene

/-! # Lemmas on the conversion of sources and skins -/

namespace Verif.FStd

open Verif.Geo Verif.FXform

/-- Three elements replaced. -/
def set3 (data : List ℝ) (i : Nat) (v : V3 ℝ) : List ℝ := ((data.set i v.x).set (i + 1) v.y).set (i + 2) v.z

theorem set3_length (data : List ℝ) (i : Nat) (v : V3 ℝ) : (set3 data i v).length = data.length := by simp [set3]

theorem set3_other (data : List ℝ) (i k : Nat) (v : V3 ℝ) (h : k < i ∨ i + 3 ≤ k) : (set3 data i v)[k]? = data[k]? := by
  rw [set3, List.getElem?_set_ne (by omega), List.getElem?_set_ne (by omega), List.getElem?_set_ne (by omega)]

theorem set3_point (data : List ℝ) (i : Nat) (v : V3 ℝ) (h : i + 3 ≤ data.length) : PointAt (set3 data i v) i v := by
  refine ⟨?_, ?_, ?_⟩
  · rw [set3, List.getElem?_set_ne (by omega), List.getElem?_set_ne (by omega), List.getElem?_set_self (by omega)]
  · rw [set3, List.getElem?_set_ne (by omega), List.getElem?_set_self (by rw [List.length_set]; omega)]
  · rw [set3, List.getElem?_set_self (by rw [List.length_set, List.length_set]; omega)]

theorem point_exists (data : List ℝ) (i : Nat) (h : i + 3 ≤ data.length) : ∃ p, PointAt data i p :=
  ⟨⟨data[i], data[i + 1], data[i + 2]⟩, List.getElem?_eq_getElem _, List.getElem?_eq_getElem _, List.getElem?_eq_getElem _⟩

theorem point_congr {data data' : List ℝ} {i : Nat} (h : ∀ k, i ≤ k → k < i + 3 → data'[k]? = data[k]?) (p : V3 ℝ) : PointAt data' i p ↔ PointAt data i p := by
  simp only [PointAt, h i le_rfl (by omega), h (i + 1) (by omega) (by omega), h (i + 2) (by omega) (by omega)]

/-- The loop that turns the values. -/
theorem turnValues_spec (c : Conv) (stride : Nat) (hs : 3 ≤ stride) (n i : Nat) (data : List ℝ) (h : i + n * stride ≤ data.length) :
    ∃ out, turnValues c stride n i data = some out ∧ out.length = data.length ∧
      (∀ k < n, ∀ p, PointAt data (i + k * stride) p → PointAt out (i + k * stride) (c.turn p)) ∧
      ∀ m, (m < i ∨ i + n * stride ≤ m ∨ 3 ≤ (m - i) % stride) → out[m]? = data[m]? := by
  induction n generalizing i data with
  | zero => exact ⟨data, rfl, rfl, fun k hk => absurd hk (Nat.not_lt_zero _), fun _ _ => rfl⟩
  | succ n ih =>
    have he : (n + 1) * stride = stride + n * stride := by rw [Nat.add_mul, Nat.one_mul, Nat.add_comm]
    rw [he] at h ⊢
    obtain ⟨p, hx, hy, hz⟩ := point_exists data i (by omega)
    obtain ⟨out, h1, h2, h3, h4⟩ := ih (i + stride) (set3 data i (c.turn p)) (by rw [set3_length]; omega)
    refine ⟨out, ?_, by rw [h2, set3_length], ?_, ?_⟩
    · simp only [turnValues, hx, hy, hz, Option.bind_some]
      exact h1
    · intro k hk q hq
      cases k with
      | zero =>
        rw [Nat.zero_mul, Nat.add_zero] at hq ⊢
        obtain rfl : q = p := by
          obtain ⟨qx, qy, qz⟩ := hq
          ext
          · exact Option.some.inj (qx.symm.trans hx)
          · exact Option.some.inj (qy.symm.trans hy)
          · exact Option.some.inj (qz.symm.trans hz)
        rw [point_congr (data := set3 data i (c.turn q))]
        · exact set3_point _ _ _ (by omega)
        · intro k h5 h6
          exact h4 k (Or.inl (by omega))
      | succ k =>
        have e : i + (k + 1) * stride = i + stride + k * stride := by rw [Nat.add_mul, Nat.one_mul]; omega
        rw [e] at hq ⊢
        refine h3 k (by omega) q ?_
        rw [point_congr (data := data)]
        · exact hq
        · intro m h5 h6
          exact set3_other _ _ _ _ (Or.inr (by omega))
    · intro m hm
      rw [h4 m, set3_other]
      · rcases hm with hm | hm | hm
        · exact Or.inl hm
        · exact Or.inr (by omega)
        · by_cases hi : m < i
          · exact Or.inl hi
          · right
            by_contra hc
            rw [Nat.mod_eq_of_lt (by omega)] at hm
            omega
      · rcases hm with hm | hm | hm
        · exact Or.inl (by omega)
        · exact Or.inr (Or.inl (by omega))
        · by_cases hi : m < i + stride
          · exact Or.inl hi
          · right; right
            rwa [← Nat.sub_sub, ← Nat.mod_eq_sub_mod (by omega)]

theorem turn_trivial {c : Conv} (h : c.hasAxis = false) (p : V3 ℝ) : c.turn p = p := by
  rw [Conv.hasAxis, decide_eq_false_iff_not, not_not] at h
  rw [Conv.turn, h]
  rfl

/-- The first step for sources: the values are turned, whether or not there is something to do. -/
theorem turnStep_spec (c : Conv) (stride : Nat) (hs : 3 ≤ stride) (data : List ℝ) :
    ∃ out, (if c.hasAxis && decide (stride ≥ 3) then turnValues c stride (data.length / stride) 0 data else some data) = some out ∧ out.length = data.length ∧
      (∀ k < data.length / stride, ∀ p, PointAt data (k * stride) p → PointAt out (k * stride) (c.turn p)) ∧
      ∀ m, (data.length / stride * stride ≤ m ∨ 3 ≤ m % stride) → out[m]? = data[m]? := by
  by_cases ha : c.hasAxis = true
  · obtain ⟨out, h1, h2, h3, h4⟩ := turnValues_spec c stride hs (data.length / stride) 0 data (by rw [Nat.zero_add]; exact Nat.div_mul_le_self _ _)
    refine ⟨out, ?_, h2, ?_, ?_⟩
    · simp [ha, hs, h1]
    · intro k hk p hp
      have := h3 k hk p
      rw [Nat.zero_add] at this
      exact this hp
    · intro m hm
      refine h4 m ?_
      simp only [Nat.zero_add, Nat.sub_zero]
      omega
  · rw [Bool.not_eq_true] at ha
    refine ⟨data, by simp [ha], rfl, ?_, fun _ _ => rfl⟩
    intro k _ p hp
    rwa [turn_trivial ha]

theorem inverted_eq {b : M44 ℝ} (hd : 1 / 2 ^ 52 < |b.determinant|) : b.inverted = M44.scalar (1 / b.determinant) b.cofactors := by
  have : b.inverted = M44.scalar (1 / safeDet b.determinant) b.cofactors := rfl
  rw [this, safeDet_big hd]

theorem inverted_affine {b : M44 ℝ} (ha : b.Affine) (hd : 1 / 2 ^ 52 < |b.determinant|) : b.inverted.Affine := by
  have hb0 : b.determinant ≠ 0 := by intro e; rw [e] at hd; norm_num at hd
  obtain ⟨h0, h1, h2, h3⟩ := ha
  rw [inverted_eq hd]
  have hdet : b.determinant = b.cofactors.m33 := by
    simp only [M44.determinant, M44.cofactors, det3x3, det2x2, h0, h1, h2, h3]
    ring
  refine ⟨?_, ?_, ?_, ?_⟩
  · simp only [M44.scalar, M44.cofactors, det3x3, det2x2, h0, h1, h2, h3]; ring
  · simp only [M44.scalar, M44.cofactors, det3x3, det2x2, h0, h1, h2, h3]; ring
  · simp only [M44.scalar, M44.cofactors, det3x3, det2x2, h0, h1, h2, h3]; ring
  · rw [M44.scalar, ← hdet]
    field_simp

theorem convertMatrix_determinant (c : Conv) {m : M44 ℝ} (ha : m.Affine) : (convertMatrix c m).determinant = m.determinant := by
  obtain ⟨h0, h1, h2, h3⟩ := ha
  obtain ⟨f, k⟩ := c
  cases f <;> simp [convertMatrix, Conv.turn, Conv.lengthen, Fn.apply, V3.smul, M44.determinant, det3x3, det2x2, h0, h1, h2, h3] <;> ring

theorem inverted_determinant {b : M44 ℝ} (hd : 1 / 2 ^ 52 < |b.determinant|) : b.inverted.determinant = 1 / b.determinant := by
  have hb0 : b.determinant ≠ 0 := by intro e; rw [e] at hd; norm_num at hd
  have := congrArg M44.determinant (inverse hd).1
  rw [toM_determinant, toM_mul, Matrix.det_mul, ← toM_determinant, ← toM_determinant] at this
  have hi : (M44.identity : M44 ℝ).determinant = 1 := by rw [toM_determinant, toM_identity, Matrix.det_one]
  rw [hi] at this
  field_simp
  linarith

theorem identity_point (p : V3 ℝ) : (M44.identity : M44 ℝ).transformCoordinate p = p := by
  simp [M44.transformCoordinate, M44.identity, M44.set]

theorem convertBindPose_spec (c : Conv) {b : M44 ℝ} (ha : b.Affine) (hd : 1 / 2 ^ 52 < |b.determinant|) (hd' : |b.determinant| < 2 ^ 52) :
    Carries c b (convertBindPose c b) ∧ (convertBindPose c b).Affine := by
  have hi := inverted_affine ha hd
  have hpos : 0 < |b.determinant| := lt_trans (by positivity) hd
  have hd2 : 1 / 2 ^ 52 < |(convertMatrix c b.inverted).determinant| := by
    rw [convertMatrix_determinant c hi, inverted_determinant hd, abs_div, abs_one]
    exact one_div_lt_one_div_of_lt hpos hd'
  refine ⟨?_, inverted_affine (convertMatrix_affine c hi) hd2⟩
  intro p
  have h1 : (convertMatrix c b.inverted).transformCoordinate (c.moved (b.transformCoordinate p)) = c.moved p := by
    rw [carries_matrix, ← (transform_product ha p).1, (inverse hd).1, identity_point]
  rw [← h1, convertBindPose, ← (transform_product (convertMatrix_affine c hi) _).1, (inverse hd2).1, identity_point]

theorem moved_add (c : Conv) (a b : V3 ℝ) : c.moved (a.add b) = (c.moved a).add (c.moved b) := by
  rw [Conv.moved, (turn_isRotation c).add]
  ext <;> simp [Conv.moved, V3.add, V3.smul] <;> ring

theorem moved_smul (c : Conv) (k : ℝ) (a : V3 ℝ) : c.moved (V3.smul k a) = V3.smul k (c.moved a) := by
  rw [Conv.moved, (turn_isRotation c).smul]
  ext <;> simp [Conv.moved, V3.smul] <;> ring

theorem moved_zero (c : Conv) : c.moved ⟨0, 0, 0⟩ = ⟨0, 0, 0⟩ := by
  have := moved_smul c 0 ⟨0, 0, 0⟩
  simpa [V3.smul] using this

end Verif.FStd
