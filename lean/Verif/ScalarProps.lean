import Verif.ScalarLemmas
import Mathlib.Algebra.Order.Field.Rat
import Mathlib.Data.Rat.Floor

/-!
# Properties of the numeric helpers (C105, C106)
-/

namespace Verif.FScalar

open Verif.Geo (V3 V4 M44 tolerance equivalent equivalent3)

section
variable {K : Type} [Field K] [LinearOrder K] [IsStrictOrderedRing K]

omit [Field K] [IsStrictOrderedRing K] in
/-- C105: a clamped value lies in the range; it is the value itself if that lies there, and otherwise the end on its side. -/
theorem clamp_range {mn mx : K} (h : mn ≤ mx) (v : K) :
    (mn ≤ clamp v mn mx ∧ clamp v mn mx ≤ mx) ∧ (mn ≤ v ∧ v ≤ mx → clamp v mn mx = v) ∧ (v < mn → clamp v mn mx = mn) ∧ (mx < v → clamp v mn mx = mx) := by
  unfold clamp
  split_ifs with h1 h2
  · exact ⟨⟨h, le_rfl⟩, fun h' => absurd h1 (not_lt.2 h'.2), fun h' => absurd (h'.trans_le h) (not_lt.2 h1.le), fun _ => rfl⟩
  · exact ⟨⟨le_rfl, h⟩, fun h' => absurd h2 (not_lt.2 h'.1), fun _ => rfl, fun h' => absurd h' h1⟩
  · exact ⟨⟨not_lt.1 h2, not_lt.1 h1⟩, fun _ => rfl, fun h' => absurd h' h2, fun h' => absurd h' h1⟩

example : clamp (7 : ℚ) 0 1 = 1 ∧ clamp (-7 : ℚ) 0 1 = 0 ∧ clamp (1 / 2 : ℚ) 0 1 = 1 / 2 := by decide +kernel

/-- C105: the general `Wrap` ends, with a value in the range that differs from the given one by a whole number of lengths of the range; values in the range stay. -/
theorem wrap_general [Archimedean K] {mn mx : K} (h : mn < mx) (v : K) :
    ∃ r, (∃ N, ∀ n ≥ N, wrap n v mn mx = some r) ∧ Wrapped v mn mx r ∧ (mn ≤ v ∧ v ≤ mx → r = v) := by
  obtain ⟨r, a, b, _, _, c⟩ := wrap_spec h v
  exact ⟨r, a, b, c⟩

/-- C105: so does `Wrap` for floats; below the range the result is above the lower end, above it below the upper end. -/
theorem wrap_float [FloorRing K] {mn mx : K} (h : mn < mx) (v : K) :
    ∃ r, wrapFloat v mn mx = some r ∧ Wrapped v mn mx r ∧ (mn ≤ v ∧ v ≤ mx → r = v) ∧ (v < mn → mn < r) ∧ (mx < v → r < mx) := by
  have hd : 0 < mx - mn := by linarith
  by_cases h1 : v > mx
  · obtain ⟨r, e, a, b, k, c⟩ := fmod_spec (a := v - mx) hd
    exact ⟨mn + r, by rw [wrapFloat, if_pos h1, e]; rfl, ⟨by linarith, by linarith, k + 1, by push_cast; linarith⟩, fun h' => absurd h1 (not_lt.2 h'.2),
      fun h' => by linarith, fun _ => by linarith⟩
  · by_cases h2 : v < mn
    · obtain ⟨r, e, a, b, k, c⟩ := fmod_spec (a := mn - v) hd
      exact ⟨mx - r, by rw [wrapFloat, if_neg h1, if_pos h2, e]; rfl, ⟨by linarith, by linarith, -k - 1, by push_cast; linarith⟩, fun h' => absurd h2 (not_lt.2 h'.1),
        fun _ => by linarith, fun h' => absurd h' h1⟩
    · exact ⟨v, by rw [wrapFloat, if_neg h1, if_neg h2], ⟨not_lt.1 h2, not_lt.1 h1, 0, by simp⟩, fun _ => rfl, fun h' => absurd h' h2, fun h' => absurd h' h1⟩

example : wrapFloat (101 / 100 : ℚ) 0 1 = some (1 / 100) ∧ wrapFloat (-1 / 4 : ℚ) 0 1 = some (3 / 4) ∧ wrap 5 (101 / 100 : ℚ) 0 1 = some (1 / 100) := by decide +kernel

end

/-- C105, in part: so does `Wrap` for integers, as long as the differences fit in 32 bits. -/
theorem wrap_int_partial {mn mx v : Int} (h : mn < mx) (hmn : -2147483648 ≤ mn) (hmx : mx ≤ 2147483647) (hd : mx - mn ≤ 2147483647) (hv1 : v - mx ≤ 2147483647)
    (hv2 : mn - v ≤ 2147483647) :
    ∃ r, wrapInt v mn mx = some r ∧ WrappedInt v mn mx r ∧ (mn ≤ v ∧ v ≤ mx → r = v) := by
  have hrem : ∀ a : Int, 0 < a → rem a (mx - mn) = some (a % (mx - mn)) := by
    intro a ha
    rw [rem, if_neg (by omega), Int.tmod_eq_emod_of_nonneg ha.le]
  by_cases h1 : v > mx
  · have p := Int.emod_nonneg (v - mx) (show mx - mn ≠ 0 by omega)
    have q := Int.emod_lt_of_pos (v - mx) (show 0 < mx - mn by omega)
    have e := Int.emod_add_mul_ediv (v - mx) (mx - mn)
    refine ⟨mn + (v - mx) % (mx - mn), ?_, ⟨by omega, by omega, (v - mx) / (mx - mn) + 1, by rw [add_mul, mul_comm ((v - mx) / (mx - mn))]; linarith⟩, fun h' => by omega⟩
    rw [wrapInt, if_pos h1, int32, if_pos (by omega), Option.bind_some, int32, if_pos (by omega), Option.bind_some, hrem _ (by omega), Option.bind_some, int32, if_pos (by omega)]
  · by_cases h2 : v < mn
    · have p := Int.emod_nonneg (mn - v) (show mx - mn ≠ 0 by omega)
      have q := Int.emod_lt_of_pos (mn - v) (show 0 < mx - mn by omega)
      have e := Int.emod_add_mul_ediv (mn - v) (mx - mn)
      refine ⟨mx - (mn - v) % (mx - mn), ?_, ⟨by omega, by omega, -((mn - v) / (mx - mn)) - 1, by rw [sub_mul, neg_mul, mul_comm ((mn - v) / (mx - mn))]; linarith⟩, fun h' => by omega⟩
      rw [wrapInt, if_neg h1, if_pos h2, int32, if_pos (by omega), Option.bind_some, int32, if_pos (by omega), Option.bind_some, hrem _ (by omega), Option.bind_some, int32, if_pos (by omega)]
    · exact ⟨v, by rw [wrapInt, if_neg h1, if_neg h2], ⟨by omega, by omega, 0, by simp⟩, fun _ => rfl⟩

example : wrapInt 370 0 360 = some 10 ∧ wrapInt (-10) 0 360 = some 350 := by decide +kernel

/-- C105: for unsigned integers there is no exception. -/
theorem wrap_uint {mn mx : UInt32} (h : mn < mx) (v : UInt32) :
    ∃ r, wrapUInt v mn mx = some r ∧ WrappedInt v.toNat mn.toNat mx.toNat r.toNat ∧ (mn ≤ v ∧ v ≤ mx → r = v) := by
  have h' := UInt32.lt_iff_toNat_lt.1 h
  have bv := v.toNat_lt
  have bx := mx.toNat_lt
  have hd : (mx - mn).toNat = mx.toNat - mn.toNat := UInt32.toNat_sub_of_le _ _ (UInt32.le_of_lt h)
  have hd0 : mx - mn ≠ 0 := by
    intro e
    rw [e] at hd
    simp at hd
    omega
  have mp : ∀ a : Nat, a % (mx.toNat - mn.toNat) < mx.toNat - mn.toNat := fun a => Nat.mod_lt _ (by omega)
  by_cases h1 : v > mx
  · have h1' := UInt32.lt_iff_toNat_lt.1 h1
    have e1 : (v - mx).toNat = v.toNat - mx.toNat := UInt32.toNat_sub_of_le _ _ (UInt32.le_of_lt h1)
    have lt := mp (v.toNat - mx.toNat)
    have e2 : (mn + (v - mx) % (mx - mn)).toNat = mn.toNat + (v.toNat - mx.toNat) % (mx.toNat - mn.toNat) := by
      rw [UInt32.toNat_add, UInt32.toNat_mod, e1, hd, Nat.mod_eq_of_lt (by omega)]
    refine ⟨mn + (v - mx) % (mx - mn), by rw [wrapUInt, if_pos h1, if_neg hd0], ⟨by rw [e2]; omega, by rw [e2]; omega, ?_⟩, fun h'' => absurd (UInt32.le_iff_toNat_le.1 h''.2) (by omega)⟩
    have e := Nat.mod_add_div (v.toNat - mx.toNat) (mx.toNat - mn.toNat)
    refine ⟨((v.toNat - mx.toNat) / (mx.toNat - mn.toNat) : Nat) + 1, ?_⟩
    rw [e2]
    have e' : (((v.toNat - mx.toNat) % (mx.toNat - mn.toNat) : Nat) : Int) + ((mx.toNat : Int) - mn.toNat) * ((v.toNat - mx.toNat) / (mx.toNat - mn.toNat) : Nat) = v.toNat - mx.toNat := by
      rw [← Nat.cast_sub h'.le, ← Nat.cast_sub h1'.le]
      exact_mod_cast e
    push_cast at e' ⊢
    linarith
  · by_cases h2 : v < mn
    · have h2' := UInt32.lt_iff_toNat_lt.1 h2
      have e1 : (mn - v).toNat = mn.toNat - v.toNat := UInt32.toNat_sub_of_le _ _ (UInt32.le_of_lt h2)
      have lt := mp (mn.toNat - v.toNat)
      have em : ((mn - v) % (mx - mn)).toNat = (mn.toNat - v.toNat) % (mx.toNat - mn.toNat) := by rw [UInt32.toNat_mod, e1, hd]
      have e2 : (mx - (mn - v) % (mx - mn)).toNat = mx.toNat - (mn.toNat - v.toNat) % (mx.toNat - mn.toNat) := by
        rw [UInt32.toNat_sub_of_le _ _ (UInt32.le_iff_toNat_le.2 (by rw [em]; omega)), em]
      refine ⟨mx - (mn - v) % (mx - mn), by rw [wrapUInt, if_neg h1, if_pos h2, if_neg hd0], ⟨by rw [e2]; omega, by rw [e2]; omega, ?_⟩,
        fun h'' => absurd (UInt32.le_iff_toNat_le.1 h''.1) (by omega)⟩
      have e := Nat.mod_add_div (mn.toNat - v.toNat) (mx.toNat - mn.toNat)
      refine ⟨-((mn.toNat - v.toNat) / (mx.toNat - mn.toNat) : Nat) - 1, ?_⟩
      rw [e2, Nat.cast_sub (by omega)]
      have e' : (((mn.toNat - v.toNat) % (mx.toNat - mn.toNat) : Nat) : Int) + ((mx.toNat : Int) - mn.toNat) * ((mn.toNat - v.toNat) / (mx.toNat - mn.toNat) : Nat) = mn.toNat - v.toNat := by
        rw [← Nat.cast_sub h'.le, ← Nat.cast_sub h2'.le]
        exact_mod_cast e
      push_cast at e' ⊢
      linarith
    · exact ⟨v, by rw [wrapUInt, if_neg h1, if_neg h2], ⟨by exact_mod_cast UInt32.le_iff_toNat_le.1 (UInt32.not_lt.1 h2), by exact_mod_cast UInt32.le_iff_toNat_le.1 (UInt32.not_lt.1 h1), 0, by simp⟩,
        fun _ => rfl⟩

example : wrapUInt 4294967295 10 20 = some 15 := by decide +kernel

/-- C105 fails: the general `Wrap` and that for floats differ at whole numbers of lengths; for an empty range the first does not end, and the others divide by zero; differences of
integers overflow. -/
theorem wrap_violated :
    (wrap 5 (2 : ℚ) 0 1 = some 1 ∧ wrapFloat (2 : ℚ) 0 1 = some 0) ∧ (wrap 5 (-1 : ℚ) 0 1 = some 0 ∧ wrapFloat (-1 : ℚ) 0 1 = some 1) ∧
    (∀ n, wrap n (2 : ℚ) 1 1 = none) ∧ wrapFloat (2 : ℚ) 1 1 = none ∧ wrapInt 2 1 1 = none ∧ wrapUInt 2 1 1 = none ∧
    wrapInt 2147483647 (-10) (-5) = none := by
  refine ⟨⟨by decide +kernel, by decide +kernel⟩, ⟨by decide +kernel, by decide +kernel⟩, fun n => ?_, by decide +kernel, by decide +kernel, by decide +kernel, by decide +kernel⟩
  have : wrapDown (1 : ℚ) 0 n 2 = none := by
    induction n with
    | zero => decide +kernel
    | succ n ih => rw [wrapDown, if_pos (by norm_num), sub_zero, ih]
  rw [wrap, sub_self, this]
  rfl

/-- C105: the ranges of the random numbers, whatever the generator of the platform returns; each end is reached. -/
theorem random_ranges {K : Type} [Field K] [LinearOrder K] [IsStrictOrderedRing K] (rand : Nat) :
    randomUInt32 rand < 2 ^ 15 ∧ (-16383 ≤ randomInt32 rand ∧ randomInt32 rand ≤ 16384) ∧ ((0 : K) ≤ randomFloat rand ∧ (randomFloat rand : K) ≤ 1) ∧
    (randomInt32 0 = -16383 ∧ randomInt32 0x7FFF = 16384) ∧ ((randomFloat 0 : K) = 0 ∧ (randomFloat 0x7FFF : K) = 1) := by
  have h : rand &&& 0x7FFF ≤ 0x7FFF := Nat.and_le_right
  have hk : ((rand &&& 0x7FFF : Nat) : K) ≤ 0x7FFF := by exact_mod_cast h
  refine ⟨by unfold randomUInt32; omega, by unfold randomInt32; omega, ⟨by unfold randomFloat; positivity, ?_⟩, ⟨by decide, by decide⟩, by simp [randomFloat], ?_⟩
  · unfold randomFloat
    rw [div_le_one (by norm_num)]
    exact hk
  · unfold randomFloat
    rw [Nat.and_self]
    norm_num

/-! ## Vectors -/

/-- C106: both normalisations of a vector other than zero are the vector of length 1 in its direction. -/
theorem normalized {a : V3 ℝ} (h : a ≠ ⟨0, 0, 0⟩) : Direction a a.normalize ∧ Direction a (normalizeIt a) := by
  have hl := length_pos h
  rw [V3.normalize, if_pos hl, normalizeIt, if_pos hl]
  exact ⟨direction h, direction h⟩

example : (⟨3, 0, 4⟩ : V3 ℝ) ≠ ⟨0, 0, 0⟩ := by simp

/-- C106: there is only one such vector. -/
theorem direction_unique {a u v : V3 ℝ} (hu : Direction a u) (hv : Direction a v) : u = v := by
  obtain ⟨u1, s, hs, rfl⟩ := hu
  obtain ⟨v1, t, ht, e⟩ := hv
  simp only [V3.mk.injEq] at e
  obtain ⟨ex, ey, ez⟩ := e
  unfold inner at u1 v1
  have : s * s = t * t := by
    have h1 : (s * u.x) * (s * u.x) + (s * u.y) * (s * u.y) + (s * u.z) * (s * u.z) = s * s := by linear_combination (s * s) * u1
    rw [ex, ey, ez] at h1
    linear_combination -h1 + (t * t) * v1
  have st : s = t := by nlinarith
  subst st
  cases u
  cases v
  simp only [V3.mk.injEq]
  exact ⟨mul_left_cancel₀ hs.ne' ex, mul_left_cancel₀ hs.ne' ey, mul_left_cancel₀ hs.ne' ez⟩

/-- C106 fails for zero: one normalisation is the X axis, the other one the Z axis. -/
theorem normalized_violated : V3.normalize ⟨0, 0, 0⟩ = ⟨1, 0, 0⟩ ∧ normalizeIt ⟨0, 0, 0⟩ = ⟨0, 0, 1⟩ := by
  have : ¬ V3.length ⟨0, 0, 0⟩ > 0 := by simp [V3.length]
  rw [V3.normalize, if_neg this, normalizeIt, if_neg this]
  exact ⟨rfl, rfl⟩

section
variable {K : Type} [Field K] [LinearOrder K] [IsStrictOrderedRing K]

/-- C106: the projection of a vector to another one is the foot of the perpendicular, which is the only one; it is defined exactly if the other vector is not zero. -/
theorem projection (a b : V3 K) :
    (b ≠ ⟨0, 0, 0⟩ → ∃ p, projected a b = some p ∧ Foot a b p ∧ ∀ q, Foot a b q → q = p) ∧ (b = ⟨0, 0, 0⟩ → projected a b = none) := by
  refine ⟨fun hb => ?_, fun hb => by rw [projected, if_pos (lengthSquared_eq_zero.2 hb)]⟩
  have h0 : b.lengthSquared ≠ 0 := fun h => hb (lengthSquared_eq_zero.1 h)
  refine ⟨V3.smul (a.dot b / b.lengthSquared) b, by rw [projected, if_neg h0], ⟨⟨a.dot b / b.lengthSquared, rfl⟩, ?_⟩, ?_⟩
  · simp only [inner, V3.smul]
    have e : a.dot b / b.lengthSquared * b.lengthSquared = a.dot b := div_mul_cancel₀ _ h0
    generalize a.dot b / b.lengthSquared = t at e
    rw [V3.lengthSquared, V3.dot] at e
    linear_combination -e
  · rintro q ⟨⟨t, rfl⟩, ht⟩
    simp only [inner] at ht
    have : t = a.dot b / b.lengthSquared := by
      rw [eq_div_iff h0, V3.lengthSquared, V3.dot]
      linear_combination -ht
    rw [this]
    rfl

example : projected (⟨1, 2, 3⟩ : V3 ℚ) ⟨0, 2, 0⟩ = some ⟨0, 2, 0⟩ := by decide +kernel

omit [Field K] [IsStrictOrderedRing K] in
/-- C106: clamping a vector between two others clamps each component. -/
theorem component_clamp (a mn mx : V3 K) (hx : mn.x ≤ mx.x) (hy : mn.y ≤ mx.y) (hz : mn.z ≤ mx.z) :
    compClamp a mn mx = ⟨max mn.x (min mx.x a.x), max mn.y (min mx.y a.y), max mn.z (min mx.z a.z)⟩ := by
  have key : ∀ {a mn mx : K}, mn ≤ mx → (if (if a < mn then mn else a) > mx then mx else (if a < mn then mn else a)) = max mn (min mx a) := by
    intro a mn mx h
    by_cases h1 : a < mn
    · rw [if_pos h1, if_neg (not_lt.2 h), min_eq_right (h1.le.trans h), max_eq_left h1.le]
    · rw [if_neg h1]
      by_cases h2 : a > mx
      · rw [if_pos h2, min_eq_left h2.le, max_eq_right h]
      · rw [if_neg h2, min_eq_right (not_lt.1 h2), max_eq_right (not_lt.1 h1)]
  have ex := key (a := a.x) hx
  have ey := key (a := a.y) hy
  have ez := key (a := a.z) hz
  simp only [compClamp, compMax, compMin, V3.mk.injEq]
  exact ⟨ex, ey, ez⟩

omit [Field K] [IsStrictOrderedRing K] in
/-- C106: what the functions for the component-wise minimum and maximum really do: each does what is documented for the other one. -/
theorem component_swapped (a m : V3 K) (a' m' : V4 K) :
    compMin a m = ⟨max a.x m.x, max a.y m.y, max a.z m.z⟩ ∧ compMax a m = ⟨min a.x m.x, min a.y m.y, min a.z m.z⟩ ∧
    compMin4 a' m' = ⟨max a'.x m'.x, max a'.y m'.y, max a'.z m'.z, max a'.w m'.w⟩ ∧
    compMax4 a' m' = ⟨min a'.x m'.x, min a'.y m'.y, min a'.z m'.z, min a'.w m'.w⟩ := by
  have k1 : ∀ a b : K, (if a < b then b else a) = max a b := by
    intro a b
    split_ifs with h
    · rw [max_eq_right h.le]
    · rw [max_eq_left (not_lt.1 h)]
  have k2 : ∀ a b : K, (if b < a then b else a) = min a b := by
    intro a b
    split_ifs with h
    · rw [min_eq_right h.le]
    · rw [min_eq_left (not_lt.1 h)]
  simp only [compMin, compMax, compMin4, compMax4, gt_iff_lt, k1, k2, and_self]

/-- C106, in part: smallest, largest and average component of a vector with components that are not negative. -/
theorem components_partial (a : V3 K) (hx : 0 ≤ a.x) (hy : 0 ≤ a.y) (hz : 0 ≤ a.z) :
    smallest a = min a.x (min a.y a.z) ∧ largest a = max a.x (max a.y a.z) ∧ 3 * average a = a.x + a.y + a.z := by
  rw [smallest, largest, average, abs_of_nonneg hx, abs_of_nonneg hy, abs_of_nonneg hz]
  exact ⟨rfl, rfl, by ring⟩

end

/-- C106 fails: the component-wise minimum is the maximum, and the smallest component of a vector is not its smallest component if one is negative. -/
theorem components_violated :
    compMin (⟨1, 1, 1⟩ : V3 ℚ) ⟨2, 0, 1⟩ = ⟨2, 1, 1⟩ ∧ compMax (⟨1, 1, 1⟩ : V3 ℚ) ⟨2, 0, 1⟩ = ⟨1, 0, 1⟩ ∧
    smallest (⟨-5, 1, 2⟩ : V3 ℚ) = 1 ∧ largest (⟨-5, 1, 2⟩ : V3 ℚ) = 5 ∧ average (⟨-5, 2, 3⟩ : V3 ℚ) = 10 / 3 := by decide +kernel

/-! ## Angles with axes -/

/-- C106: comparing an angle with an axis is reflexive and symmetric, and does not tell apart the two ways to write a rotation by more than half the tolerance. -/
theorem angle_axis_partial (a b : V3 ℝ) (s t : ℝ) :
    sameAngleAxis a s a s = true ∧ sameAngleAxis a s b t = sameAngleAxis b t a s ∧ (tolerance ≤ 2 * |s| → sameAngleAxis a s a.neg (-s) = true) := by
  have t0 : (0 : ℝ) < tolerance := Geo.tolerance_pos
  have self : ∀ x : ℝ, equivalent x x = true := fun x => by rw [Geo.equivalent_true]; simpa using t0
  have symm : ∀ x y : ℝ, equivalent x y = equivalent y x := fun x y => Bool.eq_iff_iff.2 (by rw [Geo.equivalent_true, Geo.equivalent_true, abs_sub_comm])
  have neg : ∀ x y : ℝ, equivalent x (-y) = equivalent y (-x) := fun x y => Bool.eq_iff_iff.2 (by
    rw [Geo.equivalent_true, Geo.equivalent_true, sub_neg_eq_add, sub_neg_eq_add, add_comm])
  refine ⟨?_, ?_, fun h => ?_⟩
  · simp [sameAngleAxis, self, equivalent3]
  · rw [sameAngleAxis, sameAngleAxis, symm s t, neg s t]
    simp only [equivalent3, V3.neg]
    rw [symm a.x b.x, symm a.y b.y, symm a.z b.z, neg a.x, neg a.y, neg a.z]
  · have : equivalent s (-s) = false := by
      rw [Bool.eq_false_iff]
      intro e
      rw [Geo.equivalent_true, sub_neg_eq_add, ← two_mul, abs_mul, abs_two] at e
      linarith
    rw [sameAngleAxis, this]
    simp [self, equivalent3, V3.neg]

/-- C106: the two ways to write a rotation give the same matrix. -/
theorem angle_axis_rotation (a : V3 ℝ) (ha : a ≠ ⟨0, 0, 0⟩) (s : ℝ) : Geo.axisRotationMatrix a s = Geo.axisRotationMatrix a.neg (-s) := by
  have l : V3.length a.neg = V3.length a := by simp [V3.length, V3.neg]
  have l2 : V3.lengthSquared a.neg = V3.lengthSquared a := by simp [V3.lengthSquared, V3.neg]
  have n : V3.normalize a.neg = (V3.normalize a).neg := by
    have hl := length_pos ha
    rw [V3.normalize, V3.normalize, l, if_pos hl, if_pos hl]
    simp [V3.neg, neg_div]
  rw [Geo.axisRotationMatrix, Geo.axisRotationMatrix, l2, n, Real.cos_neg, Real.sin_neg]
  split_ifs <;> simp [M44.axisRotation, V3.neg]

/-- C106 fails: the same rotation by an angle of zero, about an axis and about its negative, is taken for two different ones; and the comparison is not transitive. -/
theorem angle_axis_violated :
    sameAngleAxis ⟨1, 0, 0⟩ 0 ⟨-1, 0, 0⟩ 0 = false ∧
    (∃ s t u : ℝ, sameAngleAxis ⟨1, 0, 0⟩ s ⟨1, 0, 0⟩ t = true ∧ sameAngleAxis ⟨1, 0, 0⟩ t ⟨1, 0, 0⟩ u = true ∧ sameAngleAxis ⟨1, 0, 0⟩ s ⟨1, 0, 0⟩ u = false) := by
  have t0 : (tolerance : ℝ) = 1 / 10000 := rfl
  have key : ∀ x y : ℝ, equivalent x y = decide (|x - y| < tolerance) := fun x y => Bool.eq_iff_iff.2 (by rw [Geo.equivalent_true]; simp)
  refine ⟨?_, 1, 1 + 9 / 100000, 1 + 18 / 100000, ?_, ?_, ?_⟩
  all_goals (simp only [sameAngleAxis, equivalent3, key, t0, V3.neg]; norm_num [abs_of_pos, abs_of_neg])

end Verif.FScalar
