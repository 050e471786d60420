import Verif.ColorLemmas

/-!
# C103, C104: colours
-/

namespace Verif.FColor

open Verif.Geo (V3 V4 tolerance equivalent)

/-! ## C103: colours with bytes -/

section Bytes
variable {K : Type} [Field K] [LinearOrder K] [IsStrictOrderedRing K] [FloorRing K]

/-- C103: the colour of one to four numbers between 0 and 1 has 255 times these numbers, rounded down; the others are 0, and 255 for alpha. -/
theorem color_of_floats (r g b a : K) (hr : 0 ≤ r ∧ r ≤ 1) (hg : 0 ≤ g ∧ g ≤ 1) (hb : 0 ≤ b ∧ b ≤ 1) (ha : 0 ≤ a ∧ a ≤ 1) :
    (∃ c, Color.ofFloats [r] = some c ∧ IsByte r c.r ∧ c.g = 0 ∧ c.b = 0 ∧ c.a = 255) ∧
    (∃ c, Color.ofFloats [r, g] = some c ∧ IsByte r c.r ∧ IsByte g c.g ∧ c.b = 0 ∧ c.a = 255) ∧
    (∃ c, Color.ofFloats [r, g, b] = some c ∧ Color.ofV3 ⟨r, g, b⟩ = some c ∧ IsByte r c.r ∧ IsByte g c.g ∧ IsByte b c.b ∧ c.a = 255) ∧
    ∃ c, Color.ofFloats [r, g, b, a] = some c ∧ Color.ofV4 ⟨r, g, b, a⟩ = some c ∧ IsByte r c.r ∧ IsByte g c.g ∧ IsByte b c.b ∧ IsByte a c.a := by
  obtain ⟨nr, er, pr⟩ := component_some r hr.1 hr.2
  obtain ⟨ng, eg, pg⟩ := component_some g hg.1 hg.2
  obtain ⟨nb, eb, pb⟩ := component_some b hb.1 hb.2
  obtain ⟨na, ea, pa⟩ := component_some a ha.1 ha.2
  refine ⟨⟨⟨nr, 0, 0, 255⟩, ?_, pr, rfl, rfl, rfl⟩, ⟨⟨nr, ng, 0, 255⟩, ?_, pr, pg, rfl, rfl⟩, ⟨⟨nr, ng, nb, 255⟩, ?_, ?_, pr, pg, pb, rfl⟩,
    ⟨⟨nr, ng, nb, na⟩, ?_, ?_, pr, pg, pb, pa⟩⟩
  · simp [Color.ofFloats, er]
  · simp [Color.ofFloats, er, eg]
  · simp [Color.ofFloats, er, eg, eb]
  · simp [Color.ofV3, er, eg, eb]
  · simp [Color.ofFloats, er, eg, eb, ea]
  · simp [Color.ofV4, er, eg, eb, ea]

example : Color.ofFloats [(1 : ℚ), 1 / 2, 0, 1 / 255] = some ⟨255, 127, 0, 1⟩ := by decide +kernel

/-- C103: a colour converted to numbers and back is the colour. -/
theorem color_round_trip (c : Color) (hr : c.r ≤ 255) (hg : c.g ≤ 255) (hb : c.b ≤ 255) (ha : c.a ≤ 255) :
    Color.ofFloats (c.toFloats 4 : List K) = some c ∧ Color.ofV4 (c.toV4 : V4 K) = some c ∧
    Color.ofFloats (c.toFloats 3 : List K) = some { c with a := 255 } ∧ Color.ofFloats (c.toFloats 2 : List K) = some { c with b := 0, a := 255 } ∧
    Color.ofFloats (c.toFloats 1 : List K) = some { c with g := 0, b := 0, a := 255 } := by
  simp [Color.ofFloats, Color.toFloats, Color.ofV4, Color.toV4, component_byte _ hr, component_byte _ hg, component_byte _ hb, component_byte _ ha]

omit [FloorRing K] in
/-- C103: a number between 0 and 1 converted to a byte and back differs by less than 1/255; the conversion keeps the order. -/
theorem color_precision (f f' : K) (n n' : Nat) (h : IsByte f n) (h' : IsByte f' n') :
    (0 ≤ f - (n : K) / 255 ∧ f - (n : K) / 255 < 1 / 255) ∧ (f ≤ f' → n ≤ n') := by
  obtain ⟨_, a, b⟩ := h
  obtain ⟨_, a', b'⟩ := h'
  refine ⟨⟨by linarith, by linarith⟩, fun hf => ?_⟩
  by_contra hn
  have : (n' : K) + 1 ≤ n := by exact_mod_cast (by omega : n' + 1 ≤ n)
  linarith

/-- C103: a colour times a number between 0 and 1 is defined, and its components are the multiples, rounded down. -/
theorem color_scale (s : K) (h0 : 0 ≤ s) (h1 : s ≤ 1) (c : Color) (hr : c.r ≤ 255) (hg : c.g ≤ 255) (hb : c.b ≤ 255) (ha : c.a ≤ 255) :
    ∃ d, Color.scale s c = some d ∧ ((d.r : K) ≤ c.r * s ∧ c.r * s < d.r + 1) ∧ ((d.g : K) ≤ c.g * s ∧ c.g * s < d.g + 1) ∧
      ((d.b : K) ≤ c.b * s ∧ c.b * s < d.b + 1) ∧ ((d.a : K) ≤ c.a * s ∧ c.a * s < d.a + 1) := by
  have key : ∀ n : Nat, n ≤ 255 → ∃ m, toByte ((n : K) * s) = some m ∧ (m : K) ≤ n * s ∧ n * s < m + 1 := by
    intro n hn
    have hn' : (n : K) ≤ 255 := by exact_mod_cast hn
    have hn0 : (0 : K) ≤ n := Nat.cast_nonneg n
    obtain ⟨m, e, _, p⟩ := toByte_some ((n : K) * s) (mul_nonneg hn0 h0) (by nlinarith)
    exact ⟨m, e, p⟩
  obtain ⟨r, er, pr⟩ := key _ hr
  obtain ⟨g, eg, pg⟩ := key _ hg
  obtain ⟨b, eb, pb⟩ := key _ hb
  obtain ⟨a, ea, pa⟩ := key _ ha
  exact ⟨⟨r, g, b, a⟩, by simp [Color.scale, er, eg, eb, ea], pr, pg, pb, pa⟩

example : Color.scale (1 / 2 : ℚ) ⟨255, 100, 0, 7⟩ = some ⟨127, 50, 0, 3⟩ := by decide +kernel

/-- C103 fails for numbers outside of the range, which are not limited: the conversion is not defined; and `ToFloats` for five components gives zeroes. -/
theorem color_range_violated :
    Color.ofFloats [(2 : ℚ), 0, 0] = none ∧ Color.ofFloats [(-1 : ℚ), 0, 0] = none ∧ Color.scale (2 : ℚ) ⟨200, 0, 0, 0⟩ = none ∧
    (Color.mk 255 255 255 255).toFloats 5 = [(0 : ℚ), 0, 0, 0, 0] := by
  refine ⟨by decide +kernel, by decide +kernel, by decide +kernel, rfl⟩

end Bytes

/-- C103: in single precision too, every byte converted to a number and back is the byte. -/
theorem byte_trip (n : Nat) (h : n ≤ 255) : byteTrip n = some n := by
  have : ∀ n : Fin 256, byteTrip n = some n.1 := by decide +kernel
  exact this ⟨n, by omega⟩

/-- The rounding used in `byte_trip` is that of single precision: the result has at most 24 significant digits, and an error of at most half a digit. -/
theorem rounding {q : ℚ} (h1 : 1 / 2 ^ 17 ≤ q) (h2 : q < 2 ^ 23) :
    (∃ (m : Int) (k : Nat), f32 q = m / 2 ^ k ∧ 0 ≤ m ∧ m ≤ 2 ^ 24) ∧ |f32 q - q| ≤ q / 2 ^ 24 := f32_spec h1 h2

example : f32 (1 / 255) = 8421505 / 2 ^ 31 := by decide +kernel

/-- C103: the colour of a 32-bit number has its four bytes, red first. -/
theorem color_of_hex (hex : UInt32) :
    (Color.ofHex hex).r * 2 ^ 24 + (Color.ofHex hex).g * 2 ^ 16 + (Color.ofHex hex).b * 2 ^ 8 + (Color.ofHex hex).a = hex.toNat ∧
    (Color.ofHex hex).r < 256 ∧ (Color.ofHex hex).g < 256 ∧ (Color.ofHex hex).b < 256 ∧ (Color.ofHex hex).a < 256 := by
  have hlt := hex.toNat_lt
  have e0 : (Color.ofHex hex).a = hex.toNat % 256 := by
    simp only [Color.ofHex, UInt32.toNat_toUInt8, UInt32.toNat_and]
    rw [show (0xFF : UInt32).toNat = 2 ^ 8 - 1 from rfl, Nat.and_two_pow_sub_one_eq_mod]
    omega
  have mask : ∀ (a b : Nat), hex.toNat &&& ((2 ^ b - 1) <<< a) = (hex.toNat >>> a % 2 ^ b) <<< a := by
    intro a b
    apply Nat.eq_of_testBit_eq
    intro i
    rw [Nat.testBit_and, Nat.testBit_shiftLeft, Nat.testBit_shiftLeft, Nat.testBit_mod_two_pow, Nat.testBit_two_pow_sub_one, Nat.testBit_shiftRight]
    by_cases h : i ≥ a
    · simp only [h, decide_true, Bool.true_and]
      rw [Nat.add_sub_cancel' h, Bool.and_comm]
    · simp [h]
  have e3 : (Color.ofHex hex).r = hex.toNat / 2 ^ 24 := by
    simp only [Color.ofHex, UInt32.toNat_toUInt8, UInt32.toNat_and, UInt32.toNat_shiftRight]
    rw [show (0xFF000000 : UInt32).toNat = (2 ^ 8 - 1) <<< 24 from rfl, mask, show (24 : UInt32).toNat % 32 = 24 from rfl, Nat.shiftLeft_shiftRight,
      Nat.shiftRight_eq_div_pow]
    omega
  have e2 : (Color.ofHex hex).g = hex.toNat / 2 ^ 16 % 256 := by
    simp only [Color.ofHex, UInt32.toNat_toUInt8, UInt32.toNat_and, UInt32.toNat_shiftRight]
    rw [show (0xFF0000 : UInt32).toNat = (2 ^ 8 - 1) <<< 16 from rfl, mask, show (16 : UInt32).toNat % 32 = 16 from rfl, Nat.shiftLeft_shiftRight,
      Nat.shiftRight_eq_div_pow]
    omega
  have e1 : (Color.ofHex hex).b = hex.toNat / 2 ^ 8 % 256 := by
    simp only [Color.ofHex, UInt32.toNat_toUInt8, UInt32.toNat_and, UInt32.toNat_shiftRight]
    rw [show (0xFF00 : UInt32).toNat = (2 ^ 8 - 1) <<< 8 from rfl, mask, show (8 : UInt32).toNat % 32 = 8 from rfl, Nat.shiftLeft_shiftRight,
      Nat.shiftRight_eq_div_pow]
    omega
  rw [e0, e1, e2, e3]
  omega

example : Color.ofHex 0x12345678 = ⟨0x12, 0x34, 0x56, 0x78⟩ := by decide +kernel

/-- C103: the average of red, green and blue is rounded down and lies between the smallest and the largest of them. -/
theorem color_average (c : Color) (hr : c.r ≤ 255) (hg : c.g ≤ 255) (hb : c.b ≤ 255) :
    3 * c.average ≤ c.r + c.g + c.b ∧ c.r + c.g + c.b < 3 * c.average + 3 ∧ min (min c.r c.g) c.b ≤ c.average ∧ c.average ≤ max (max c.r c.g) c.b := by
  have e : c.average = (c.r + c.g + c.b) / 3 := by
    simp only [Color.average, UInt32.toNat_add, UInt32.toNat_ofNat']
    congr 1
    omega
  rw [e]
  omega

example : (Color.mk 255 255 254 0).average = 254 := by decide +kernel

/-! ## C104: hue, saturation and value -/

section Hsv
variable {K : Type} [Field K] [LinearOrder K] [IsStrictOrderedRing K]

section Floor
variable [FloorRing K]

/-- C104, in part: the colour of a hue from 0 to below 1, a saturation that reaches the tolerance, and a value is the one that these mean; without saturation it is grey. -/
theorem from_hsv_partial {h s v : K} (a : 0 ≤ h) (b : h < 1) :
    (tolerance ≤ s → fromHSV (some h) s v = some ⟨(hsvColor h s v).x, (hsvColor h s v).y, (hsvColor h s v).z, 1⟩) ∧
    fromHSV (some h) 0 v = some ⟨(hsvColor h 0 v).x, (hsvColor h 0 v).y, (hsvColor h 0 v).z, 1⟩ := by
  refine ⟨fromHSV_spec a b, ?_⟩
  rw [fromHSV, if_pos (equivalent_self 0)]
  simp [hsvColor]

example : fromHSV (some (1 / 3 : ℚ)) 1 1 = some ⟨0, 1, 0, 1⟩ := by decide +kernel

/-- C104 fails for the hue 1, which is given as allowed: it is magenta, not red; for saturations below the tolerance; and the conversion of a negative hue is not defined. -/
theorem from_hsv_violated :
    (fromHSV (some (1 : ℚ)) 1 1 = some ⟨1, 0, 1, 1⟩ ∧ hsvColor (1 : ℚ) 1 1 = ⟨1, 0, 0⟩) ∧
    (fromHSV (some (0 : ℚ)) (1 / 20000) 1 = some ⟨1, 1, 1, 1⟩ ∧ hsvColor (0 : ℚ) (1 / 20000) 1 = ⟨1, 19999 / 20000, 19999 / 20000⟩) ∧
    fromHSV (some (-1 / 6 : ℚ)) 1 1 = none := by decide +kernel

end Floor

/-- C104, in part: hue, saturation and value of a colour that is not grey and in which red and green are the largest component or smaller by the tolerance: they lie in their ranges
and mean the colour. -/
theorem to_hsv_partial (c : V3 K) (hr : InRange c) (hb : Bright c) (hg : ¬ Grey c) (ha : Apart c) :
    ∃ h s v, toHSV c = (some h, s, v) ∧ (0 ≤ h ∧ h < 1) ∧ (0 < s ∧ s ≤ 1) ∧ (0 < v ∧ v ≤ 1) ∧ hsvColor h s v = c := by
  have t := tolerance_pos (K := K)
  have hL : 0 < max (max c.x c.y) c.z := lt_of_lt_of_le t hb
  have hd : 0 < max (max c.x c.y) c.z - min (min c.x c.y) c.z := lt_of_le_of_ne (delta_nonneg c) (fun e => hg ((grey_delta c).1 e.symm))
  obtain ⟨h, e, h0, h1, hc⟩ := hue_spec c _ _ hL hd rfl rfl ha.1 ha.2
  have e0 : equivalent (max (max c.x c.y) c.z) 0 = false := (equivalent_zero hL.le).2 hb
  refine ⟨h, _, _, ?_, ⟨h0, h1⟩, ⟨div_pos hd hL, ?_⟩, ⟨hL, ?_⟩, hc⟩
  · simp only [toHSV, e0, e]
    rfl
  · rw [div_le_one hL]
    have : 0 ≤ min (min c.x c.y) c.z := le_min (le_min hr.1.1 hr.2.1.1) hr.2.2.1
    linarith
  · exact max_le (max_le hr.1.2 hr.2.1.2) hr.2.2.2

example : toHSV (⟨1 / 2, 1, 1 / 4⟩ : V3 ℚ) = (some (5 / 18), 3 / 4, 1) ∧ Apart (⟨1 / 2, 1, 1 / 4⟩ : V3 ℚ) := by
  refine ⟨by decide +kernel, ?_, ?_⟩ <;> simp [Geo.tolerance] <;> norm_num

/-- C104: a hue, a saturation and a value are found again from the colour that they mean. -/
theorem hsv_round_trip_partial {h s v : K} (a : 0 ≤ h) (b : h < 1) (hs : 0 < s) (hs1 : s ≤ 1) (hv : tolerance ≤ v) (hv1 : v ≤ 1) (ha : Apart (hsvColor h s v)) :
    toHSV (hsvColor h s v) = (some h, s, v) := by
  have t := tolerance_pos (K := K)
  have v0 : 0 < v := lt_of_lt_of_le t hv
  obtain ⟨m1, m2⟩ := mix_max h s v a b hs v0
  have nonneg : 0 ≤ v * (1 - s) := mul_nonneg v0.le (by linarith)
  have x1 : (hsvColor h s v).x ≤ v := by conv_rhs => rw [← m1]
                                         exact le_max_of_le_left (le_max_left _ _)
  have y1 : (hsvColor h s v).y ≤ v := by conv_rhs => rw [← m1]
                                         exact le_max_of_le_left (le_max_right _ _)
  have z1 : (hsvColor h s v).z ≤ v := by conv_rhs => rw [← m1]
                                         exact le_max_right _ _
  have x0 : v * (1 - s) ≤ (hsvColor h s v).x := by rw [← m2]; exact (min_le_left _ _).trans (min_le_left _ _)
  have y0 : v * (1 - s) ≤ (hsvColor h s v).y := by rw [← m2]; exact (min_le_left _ _).trans (min_le_right _ _)
  have z0 : v * (1 - s) ≤ (hsvColor h s v).z := by rw [← m2]; exact min_le_right _ _
  have hr : InRange (hsvColor h s v) := ⟨⟨by linarith, by linarith⟩, ⟨by linarith, by linarith⟩, by linarith, by linarith⟩
  have hb : Bright (hsvColor h s v) := by unfold Bright; rw [m1]; exact hv
  have hg : ¬ Grey (hsvColor h s v) := by
    intro g
    have := (grey_delta _).2 g
    rw [m1, m2] at this
    have : v * s = 0 := by linarith
    exact (mul_pos v0 hs).ne' this
  obtain ⟨h', s', v', e, ⟨p, q⟩, ⟨r, _⟩, ⟨w, _⟩, hc⟩ := to_hsv_partial _ hr hb hg ha
  obtain ⟨rfl, rfl, rfl⟩ := hsvColor_inj p q r w a b hs v0 hc
  exact e

/-- C104, in part: for all colours but the greys, hue, saturation and value lie in their ranges; and the saturation of greys is 0. -/
theorem hsv_range_partial (c : V3 K) (hr : InRange c) :
    (¬ Grey c → ∃ h s v, toHSV c = (some h, s, v) ∧ (0 ≤ h ∧ h < 1) ∧ (0 ≤ s ∧ s ≤ 1) ∧ (0 ≤ v ∧ v ≤ 1)) ∧
    (Grey c → (toHSV c).2 = (0, c.x)) := by
  have l0 : 0 ≤ max (max c.x c.y) c.z := hr.2.2.1.trans (le_max_right _ _)
  have l1 : max (max c.x c.y) c.z ≤ 1 := max_le (max_le hr.1.2 hr.2.1.2) hr.2.2.2
  refine ⟨fun hg => ?_, fun hg => ?_⟩
  · have hd : 0 < max (max c.x c.y) c.z - min (min c.x c.y) c.z := lt_of_le_of_ne (delta_nonneg c) (fun e => hg ((grey_delta c).1 e.symm))
    by_cases e0 : equivalent (max (max c.x c.y) c.z) 0 = true
    · refine ⟨0, 0, _, by simp only [toHSV, e0, if_true], ⟨le_refl _, zero_lt_one⟩, ⟨le_refl _, zero_le_one⟩, l0, l1⟩
    · have m0 : 0 ≤ min (min c.x c.y) c.z := le_min (le_min hr.1.1 hr.2.1.1) hr.2.2.1
      have hL : 0 < max (max c.x c.y) c.z := by linarith
      obtain ⟨h, e, h0, h1⟩ := hue_range c _ _ hd rfl rfl
      refine ⟨h, _, _, by simp only [toHSV, e0, e]; rfl, ⟨h0, h1⟩, ⟨(div_pos hd hL).le, ?_⟩, l0, l1⟩
      rw [div_le_one hL]
      linarith
  · have d := (grey_delta c).2 hg
    have hm : max (max c.x c.y) c.z = c.x := by
      rw [← hg.2, ← hg.1]
      simp
    unfold toHSV
    dsimp only
    rw [d, hm]
    split_ifs
    · rfl
    · rw [zero_div]

example : InRange (⟨1 / 2, 1, 1 / 4⟩ : V3 ℚ) ∧ ¬ Grey (⟨1 / 2, 1, 1 / 4⟩ : V3 ℚ) := by
  unfold InRange Grey
  constructor
  · refine ⟨⟨?_, ?_⟩, ⟨?_, ?_⟩, ?_, ?_⟩ <;> norm_num
  · rintro ⟨h, _⟩
    norm_num at h

/-- C104 fails for greys, the hue of which is not a number; and for a dark colour with components that differ by less than the tolerance: it has the hue of yellow and red instead of its
own. -/
theorem to_hsv_violated :
    toHSV (⟨1 / 2, 1 / 2, 1 / 2⟩ : V3 ℚ) = (none, 0, 1 / 2) ∧
    toHSV (⟨95 / 100000, 100 / 100000, 90 / 100000⟩ : V3 ℚ) = (some (1 / 6), 1 / 10, 1 / 1000) ∧
    hsvColor (1 / 6 : ℚ) (1 / 10) (1 / 1000) = ⟨100 / 100000, 100 / 100000, 90 / 100000⟩ ∧
    hsvColor (1 / 4 : ℚ) (1 / 10) (1 / 1000) = ⟨95 / 100000, 100 / 100000, 90 / 100000⟩ := by decide +kernel

end Hsv

end Verif.FColor
