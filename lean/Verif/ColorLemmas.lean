import Verif.ColorSpec
import Mathlib.Tactic.Linarith
import Mathlib.Tactic.FieldSimp
import Mathlib.Tactic.Ring
import Mathlib.Tactic.FinCases
import Mathlib.Tactic.IntervalCases

/-!
# Lemmas about colours
-/

namespace Verif.FColor

open Verif.Geo (V3 V4 tolerance equivalent)

section
variable {K : Type} [Field K] [LinearOrder K] [IsStrictOrderedRing K]

theorem clamp_one {t : K} (h : 1 ≤ t) : clamp01 t = 1 := by rw [clamp01, min_eq_left h, max_eq_right zero_le_one]
theorem clamp_zero {t : K} (h : t ≤ 0) : clamp01 t = 0 := by rw [clamp01, min_eq_right (h.trans zero_le_one), max_eq_left h]
omit [IsStrictOrderedRing K] in
theorem clamp_id {t : K} (h0 : 0 ≤ t) (h1 : t ≤ 1) : clamp01 t = t := by rw [clamp01, min_eq_right h1, max_eq_right h0]

theorem hue0 {h : K} (a : 0 ≤ 6 * h) (b : 6 * h ≤ 1) : hueColor h = ⟨1, 6 * h, 0⟩ := by
  rw [hueColor, abs_of_nonpos (by linarith), abs_of_nonpos (by linarith), abs_of_nonpos (by linarith), clamp_one (by linarith), clamp_id (by linarith) (by linarith),
    clamp_zero (by linarith)]
  congr 1
  ring

theorem hue1 {h : K} (a : 1 ≤ 6 * h) (b : 6 * h ≤ 2) : hueColor h = ⟨2 - 6 * h, 1, 0⟩ := by
  rw [hueColor, abs_of_nonpos (by linarith), abs_of_nonpos (by linarith), abs_of_nonpos (by linarith), clamp_id (by linarith) (by linarith), clamp_one (by linarith),
    clamp_zero (by linarith)]
  congr 1
  ring

theorem hue2 {h : K} (a : 2 ≤ 6 * h) (b : 6 * h ≤ 3) : hueColor h = ⟨0, 1, 6 * h - 2⟩ := by
  rw [hueColor, abs_of_nonpos (by linarith), abs_of_nonneg (by linarith), abs_of_nonpos (by linarith), clamp_zero (by linarith), clamp_one (by linarith),
    clamp_id (by linarith) (by linarith)]
  congr 1
  ring

theorem hue3 {h : K} (a : 3 ≤ 6 * h) (b : 6 * h ≤ 4) : hueColor h = ⟨0, 4 - 6 * h, 1⟩ := by
  rw [hueColor, abs_of_nonneg (by linarith), abs_of_nonneg (by linarith), abs_of_nonpos (by linarith), clamp_zero (by linarith), clamp_id (by linarith) (by linarith),
    clamp_one (by linarith)]
  congr 1
  ring

theorem hue4 {h : K} (a : 4 ≤ 6 * h) (b : 6 * h ≤ 5) : hueColor h = ⟨6 * h - 4, 0, 1⟩ := by
  rw [hueColor, abs_of_nonneg (by linarith), abs_of_nonneg (by linarith), abs_of_nonneg (by linarith), clamp_id (by linarith) (by linarith), clamp_zero (by linarith),
    clamp_one (by linarith)]
  congr 1
  ring

theorem hue5 {h : K} (a : 5 ≤ 6 * h) (b : 6 * h ≤ 6) : hueColor h = ⟨1, 0, 6 - 6 * h⟩ := by
  rw [hueColor, abs_of_nonneg (by linarith), abs_of_nonneg (by linarith), abs_of_nonneg (by linarith), clamp_one (by linarith), clamp_zero (by linarith),
    clamp_id (by linarith) (by linarith)]
  congr 1
  ring

theorem hue_cases {h : K} (a : 0 ≤ h) (b : h < 1) :
    (0 ≤ 6 * h ∧ 6 * h ≤ 1 ∧ hueColor h = ⟨1, 6 * h, 0⟩) ∨ (1 < 6 * h ∧ 6 * h ≤ 2 ∧ hueColor h = ⟨2 - 6 * h, 1, 0⟩) ∨
    (2 < 6 * h ∧ 6 * h ≤ 3 ∧ hueColor h = ⟨0, 1, 6 * h - 2⟩) ∨ (3 < 6 * h ∧ 6 * h ≤ 4 ∧ hueColor h = ⟨0, 4 - 6 * h, 1⟩) ∨
    (4 < 6 * h ∧ 6 * h ≤ 5 ∧ hueColor h = ⟨6 * h - 4, 0, 1⟩) ∨ (5 < 6 * h ∧ 6 * h < 6 ∧ hueColor h = ⟨1, 0, 6 - 6 * h⟩) := by
  rcases le_or_gt (6 * h) 1 with h1 | h1
  · exact .inl ⟨by linarith, h1, hue0 (by linarith) h1⟩
  rcases le_or_gt (6 * h) 2 with h2 | h2
  · exact .inr (.inl ⟨h1, h2, hue1 h1.le h2⟩)
  rcases le_or_gt (6 * h) 3 with h3 | h3
  · exact .inr (.inr (.inl ⟨h2, h3, hue2 h2.le h3⟩))
  rcases le_or_gt (6 * h) 4 with h4 | h4
  · exact .inr (.inr (.inr (.inl ⟨h3, h4, hue3 h3.le h4⟩)))
  rcases le_or_gt (6 * h) 5 with h5 | h5
  · exact .inr (.inr (.inr (.inr (.inl ⟨h4, h5, hue4 h4.le h5⟩))))
  · exact .inr (.inr (.inr (.inr (.inr ⟨h5, by linarith, hue5 h5.le (by linarith)⟩))))

theorem tolerance_pos : (0 : K) < tolerance := by
  unfold tolerance
  positivity

theorem equivalent_zero {s : K} (h : 0 ≤ s) : equivalent s 0 = false ↔ tolerance ≤ s := by
  have := tolerance_pos (K := K)
  simp only [equivalent, Bool.and_eq_false_iff, decide_eq_false_iff_not, not_lt, sub_zero, zero_sub]
  constructor
  · rintro (h' | h')
    · exact h'
    · linarith
  · exact .inl

theorem equivalent_le {a b : K} (h : a ≤ b) : equivalent a b = false ↔ a + tolerance ≤ b := by
  have := tolerance_pos (K := K)
  simp only [equivalent, Bool.and_eq_false_iff, decide_eq_false_iff_not, not_lt]
  constructor
  · rintro (h' | h') <;> linarith
  · intro h'
    right
    linarith

theorem equivalent_self (a : K) : equivalent a a = true := by
  have := tolerance_pos (K := K)
  simp [equivalent, this]

theorem mix_max (h s v : K) (a : 0 ≤ h) (b : h < 1) (hs : 0 < s) (hv : 0 < v) :
    max (max (hsvColor h s v).x (hsvColor h s v).y) (hsvColor h s v).z = v ∧
    min (min (hsvColor h s v).x (hsvColor h s v).y) (hsvColor h s v).z = v * (1 - s) := by
  have hvs : 0 < v * s := mul_pos hv hs
  have key : ∀ u : K, u ≤ 1 → v * ((1 - s) + s * u) ≤ v := fun u hu => by nlinarith
  have key2 : ∀ u : K, 0 ≤ u → v * (1 - s) ≤ v * ((1 - s) + s * u) := fun u hu => by nlinarith [mul_nonneg hvs.le hu]
  have e1 : v * ((1 - s) + s * 1) = v := by ring
  have e0 : v * ((1 - s) + s * 0) = v * (1 - s) := by ring
  have le01 : v * (1 - s) ≤ v := by nlinarith
  rcases hue_cases a b with ⟨p, q, e⟩ | ⟨p, q, e⟩ | ⟨p, q, e⟩ | ⟨p, q, e⟩ | ⟨p, q, e⟩ | ⟨p, q, e⟩ <;> simp only [hsvColor, e, e1, e0]
  · have k1 := key (6 * h) (by linarith)
    have k2 := key2 (6 * h) (by linarith)
    rw [max_eq_left k1, max_eq_left le01, min_eq_right k1, min_eq_right k2]
    exact ⟨rfl, rfl⟩
  · have k1 := key (2 - 6 * h) (by linarith)
    have k2 := key2 (2 - 6 * h) (by linarith)
    rw [max_eq_right k1, max_eq_left le01, min_eq_left k1, min_eq_right k2]
    exact ⟨rfl, rfl⟩
  · have k1 := key (6 * h - 2) (by linarith)
    have k2 := key2 (6 * h - 2) (by linarith)
    rw [max_eq_right le01, max_eq_left k1, min_eq_left le01, min_eq_left k2]
    exact ⟨rfl, rfl⟩
  · have k1 := key (4 - 6 * h) (by linarith)
    have k2 := key2 (4 - 6 * h) (by linarith)
    rw [max_eq_right k2, max_eq_right k1, min_eq_left k2, min_eq_left le01]
    exact ⟨rfl, rfl⟩
  · have k1 := key (6 * h - 4) (by linarith)
    have k2 := key2 (6 * h - 4) (by linarith)
    rw [max_eq_left k2, max_eq_right k1, min_eq_right k2, min_eq_left le01]
    exact ⟨rfl, rfl⟩
  · have k1 := key (6 - 6 * h) (by linarith)
    have k2 := key2 (6 - 6 * h) (by linarith)
    rw [max_eq_left le01, max_eq_left k1, min_eq_right le01, min_eq_left k2]
    exact ⟨rfl, rfl⟩

theorem hueColor_inj {h h' : K} (a : 0 ≤ h) (b : h < 1) (a' : 0 ≤ h') (b' : h' < 1) (e : hueColor h = hueColor h') : h = h' := by
  rcases hue_cases a b with ⟨p, q, r⟩ | ⟨p, q, r⟩ | ⟨p, q, r⟩ | ⟨p, q, r⟩ | ⟨p, q, r⟩ | ⟨p, q, r⟩ <;>
    rcases hue_cases a' b' with ⟨p', q', r'⟩ | ⟨p', q', r'⟩ | ⟨p', q', r'⟩ | ⟨p', q', r'⟩ | ⟨p', q', r'⟩ | ⟨p', q', r'⟩ <;>
    (rw [r, r'] at e; simp only [V3.mk.injEq] at e; obtain ⟨e1, e2, e3⟩ := e; linarith)

theorem hsvColor_inj {h s v h' s' v' : K} (a : 0 ≤ h) (b : h < 1) (hs : 0 < s) (hv : 0 < v) (a' : 0 ≤ h') (b' : h' < 1) (hs' : 0 < s')
    (hv' : 0 < v') (e : hsvColor h s v = hsvColor h' s' v') : h = h' ∧ s = s' ∧ v = v' := by
  obtain ⟨m1, m2⟩ := mix_max h s v a b hs hv
  obtain ⟨n1, n2⟩ := mix_max h' s' v' a' b' hs' hv'
  rw [e] at m1 m2
  have ev : v = v' := m1.symm.trans n1
  subst ev
  have es : s = s' := by
    have := mul_left_cancel₀ hv.ne' (m2.symm.trans n2)
    linarith
  subst es
  refine ⟨hueColor_inj a b a' b' ?_, rfl, rfl⟩
  have inj : ∀ x y : K, v * ((1 - s) + s * x) = v * ((1 - s) + s * y) → x = y := by
    intro x y h
    have := mul_left_cancel₀ hv.ne' h
    exact mul_left_cancel₀ hs.ne' (by linarith)
  simp only [hsvColor, V3.mk.injEq] at e
  exact V3.ext (inj _ _ e.1) (inj _ _ e.2.1) (inj _ _ e.2.2)

omit [IsStrictOrderedRing K] in
theorem hueOf_eq {c : V3 K} {L d h0 : K}
    (e : (if equivalent c.x L then divide (c.y - c.z) d else if equivalent c.y L then (divide (c.z - c.x) d).map (2 + ·) else (divide (c.x - c.y) d).map (4 + ·)) = some h0) :
    hueOf c L d = some (if h0 / 6 < 0 then h0 / 6 + 1 else h0 / 6) := by
  simp only [hueOf, e, Option.map_some]

omit [IsStrictOrderedRing K] in
/-- The hue that has a certain pure colour. -/
theorem mixed {c : V3 K} {L d h p q r : K} (hL : 0 < L) (hh : hueColor h = ⟨p, q, r⟩) (e1 : c.x = L - d + d * p) (e2 : c.y = L - d + d * q)
    (e3 : c.z = L - d + d * r) : hsvColor h (d / L) L = c := by
  have key : ∀ t : K, L * ((1 - d / L) + d / L * t) = L - d + d * t := by
    intro t
    field_simp
  ext
  · rw [e1, ← key]; simp only [hsvColor, hh]
  · rw [e2, ← key]; simp only [hsvColor, hh]
  · rw [e3, ← key]; simp only [hsvColor, hh]

theorem hue_spec (c : V3 K) (L d : K) (hL : 0 < L) (hd : 0 < d) (eL : L = max (max c.x c.y) c.z) (ed : d = L - min (min c.x c.y) c.z)
    (hx : c.x = L ∨ c.x + tolerance ≤ L) (hy : c.y = L ∨ c.y + tolerance ≤ L) :
    ∃ h, hueOf c L d = some h ∧ 0 ≤ h ∧ h < 1 ∧ hsvColor h (d / L) L = c := by
  have t := tolerance_pos (K := K)
  have lx : c.x ≤ L := by rw [eL]; exact le_max_of_le_left (le_max_left _ _)
  have ly : c.y ≤ L := by rw [eL]; exact le_max_of_le_left (le_max_right _ _)
  have lz : c.z ≤ L := by rw [eL]; exact le_max_right _ _
  have sx : L - d ≤ c.x := by rw [ed, sub_sub_cancel]; exact (min_le_left _ _).trans (min_le_left _ _)
  have sy : L - d ≤ c.y := by rw [ed, sub_sub_cancel]; exact (min_le_left _ _).trans (min_le_right _ _)
  have sz : L - d ≤ c.z := by rw [ed, sub_sub_cancel]; exact min_le_right _ _
  have one : c.x = L - d ∨ c.y = L - d ∨ c.z = L - d := by
    rw [ed, sub_sub_cancel]
    rcases min_choice (min c.x c.y) c.z with h | h
    · rcases min_choice c.x c.y with h' | h'
      · left; rw [h, h']
      · right; left; rw [h, h']
    · right; right; rw [h]
  have top : c.x = L ∨ c.y = L ∨ c.z = L := by
    rw [eL]
    rcases max_choice (max c.x c.y) c.z with h | h
    · rcases max_choice c.x c.y with h' | h'
      · left; rw [h, h']
      · right; left; rw [h, h']
    · right; right; rw [h]
  have dv : ∀ a : K, divide a d = some (a / d) := fun a => if_neg hd.ne'
  have dd : ∀ a : K, d * (a / d) = a := fun a => mul_div_cancel₀ a hd.ne'
  have up : ∀ a : K, a ≤ d → a / d ≤ 1 := fun a h => (div_le_one hd).2 h
  have lo : ∀ a : K, -d ≤ a → -1 ≤ a / d := fun a h => by rw [le_div_iff₀ hd]; linarith
  have po : ∀ a : K, 0 ≤ a → 0 ≤ a / d := fun a h => div_nonneg h hd.le
  have ng : ∀ a : K, a < 0 → a / d < 0 := fun a h => div_neg_of_neg_of_pos h hd
  rcases hx with hx | hx
  · have e := hueOf_eq (c := c) (L := L) (d := d) (h0 := (c.y - c.z) / d) (by rw [hx, equivalent_self, if_pos rfl, dv])
    refine ⟨_, e, ?_⟩
    rcases le_or_gt 0 (c.y - c.z) with h1 | h1
    · have b1 := po _ h1
      have b2 := up (c.y - c.z) (by linarith)
      have hz : c.z = L - d := by rcases one with o | o | o <;> linarith
      rw [if_neg (by linarith)]
      refine ⟨by linarith, by linarith, mixed hL (hue0 (by linarith) (by linarith)) (by linarith) ?_ (by linarith)⟩
      rw [show 6 * ((c.y - c.z) / d / 6) = (c.y - c.z) / d by ring, dd]
      linarith
    · have b1 := ng _ h1
      have b2 := lo (c.y - c.z) (by linarith)
      have hz : c.y = L - d := by rcases one with o | o | o <;> linarith
      rw [if_pos (by linarith)]
      refine ⟨by linarith, by linarith, mixed hL (hue5 (by linarith) (by linarith)) (by linarith) (by linarith) ?_⟩
      rw [show 6 - 6 * ((c.y - c.z) / d / 6 + 1) = -((c.y - c.z) / d) by ring, mul_neg, dd]
      linarith
  · have ex : equivalent c.x L = false := (equivalent_le lx).2 hx
    rcases hy with hy | hy
    · have e := hueOf_eq (c := c) (L := L) (d := d) (h0 := 2 + (c.z - c.x) / d) (by
        rw [ex, if_neg (by simp), hy, equivalent_self, if_pos rfl, dv, Option.map_some])
      refine ⟨_, e, ?_⟩
      rcases le_or_gt 0 (c.z - c.x) with h1 | h1
      · have b1 := po _ h1
        have b2 := up (c.z - c.x) (by linarith)
        have hz : c.x = L - d := by rcases one with o | o | o <;> linarith
        rw [if_neg (by linarith)]
        refine ⟨by linarith, by linarith, mixed hL (hue2 (by linarith) (by linarith)) (by linarith) (by linarith) ?_⟩
        rw [show 6 * ((2 + (c.z - c.x) / d) / 6) - 2 = (c.z - c.x) / d by ring, dd]
        linarith
      · have b1 := ng _ h1
        have b2 := lo (c.z - c.x) (by linarith)
        have hz : c.z = L - d := by rcases one with o | o | o <;> linarith
        rw [if_neg (by linarith)]
        refine ⟨by linarith, by linarith, mixed hL (hue1 (by linarith) (by linarith)) ?_ (by linarith) (by linarith)⟩
        rw [show 2 - 6 * ((2 + (c.z - c.x) / d) / 6) = -((c.z - c.x) / d) by ring, mul_neg, dd]
        linarith
    · have ey : equivalent c.y L = false := (equivalent_le ly).2 hy
      have hz : c.z = L := by rcases top with o | o | o <;> linarith
      have e := hueOf_eq (c := c) (L := L) (d := d) (h0 := 4 + (c.x - c.y) / d) (by
        rw [ex, if_neg (by simp), ey, if_neg (by simp), dv, Option.map_some])
      refine ⟨_, e, ?_⟩
      rcases le_or_gt 0 (c.x - c.y) with h1 | h1
      · have b1 := po _ h1
        have b2 := up (c.x - c.y) (by linarith)
        have hz : c.y = L - d := by rcases one with o | o | o <;> linarith
        rw [if_neg (by linarith)]
        refine ⟨by linarith, by linarith, mixed hL (hue4 (by linarith) (by linarith)) ?_ (by linarith) (by linarith)⟩
        rw [show 6 * ((4 + (c.x - c.y) / d) / 6) - 4 = (c.x - c.y) / d by ring, dd]
        linarith
      · have b1 := ng _ h1
        have b2 := lo (c.x - c.y) (by linarith)
        have hz : c.x = L - d := by rcases one with o | o | o <;> linarith
        rw [if_neg (by linarith)]
        refine ⟨by linarith, by linarith, mixed hL (hue3 (by linarith) (by linarith)) (by linarith) ?_ (by linarith)⟩
        rw [show 4 - 6 * ((4 + (c.x - c.y) / d) / 6) = -((c.x - c.y) / d) by ring, mul_neg, dd]
        linarith

/-- The hue lies in its range, whatever the tolerance does. -/
theorem hue_range (c : V3 K) (L d : K) (hd : 0 < d) (eL : L = max (max c.x c.y) c.z) (ed : d = L - min (min c.x c.y) c.z) :
    ∃ h, hueOf c L d = some h ∧ 0 ≤ h ∧ h < 1 := by
  have lx : c.x ≤ L := by rw [eL]; exact le_max_of_le_left (le_max_left _ _)
  have ly : c.y ≤ L := by rw [eL]; exact le_max_of_le_left (le_max_right _ _)
  have lz : c.z ≤ L := by rw [eL]; exact le_max_right _ _
  have sx : L - d ≤ c.x := by rw [ed, sub_sub_cancel]; exact (min_le_left _ _).trans (min_le_left _ _)
  have sy : L - d ≤ c.y := by rw [ed, sub_sub_cancel]; exact (min_le_left _ _).trans (min_le_right _ _)
  have sz : L - d ≤ c.z := by rw [ed, sub_sub_cancel]; exact min_le_right _ _
  have dv : ∀ a : K, divide a d = some (a / d) := fun a => if_neg hd.ne'
  have up : ∀ a : K, a ≤ d → a / d ≤ 1 := fun a h => (div_le_one hd).2 h
  have lo : ∀ a : K, -d ≤ a → -1 ≤ a / d := fun a h => by rw [le_div_iff₀ hd]; linarith
  have fin : ∀ h0 : K, -1 ≤ h0 → h0 ≤ 5 → 0 ≤ (if h0 / 6 < 0 then h0 / 6 + 1 else h0 / 6) ∧ (if h0 / 6 < 0 then h0 / 6 + 1 else h0 / 6) < 1 := by
    intro h0 a b
    split_ifs with c
    · constructor <;> linarith
    · constructor <;> linarith
  by_cases ex : equivalent c.x L = true
  · refine ⟨_, hueOf_eq (h0 := (c.y - c.z) / d) (by rw [if_pos ex, dv]), fin _ (lo _ (by linarith)) ?_⟩
    have := up (c.y - c.z) (by linarith)
    linarith
  · by_cases ey : equivalent c.y L = true
    · refine ⟨_, hueOf_eq (h0 := 2 + (c.z - c.x) / d) (by rw [if_neg ex, if_pos ey, dv, Option.map_some]), fin _ ?_ ?_⟩
      · have := lo (c.z - c.x) (by linarith)
        linarith
      · have := up (c.z - c.x) (by linarith)
        linarith
    · refine ⟨_, hueOf_eq (h0 := 4 + (c.x - c.y) / d) (by rw [if_neg ex, if_neg ey, dv, Option.map_some]), fin _ ?_ ?_⟩
      · have := lo (c.x - c.y) (by linarith)
        linarith
      · have := up (c.x - c.y) (by linarith)
        linarith

theorem grey_delta (c : V3 K) : max (max c.x c.y) c.z - min (min c.x c.y) c.z = 0 ↔ Grey c := by
  constructor
  · intro h
    have h := sub_eq_zero.1 h
    have a1 : c.x ≤ max (max c.x c.y) c.z := le_max_of_le_left (le_max_left _ _)
    have a2 : c.y ≤ max (max c.x c.y) c.z := le_max_of_le_left (le_max_right _ _)
    have a3 : c.z ≤ max (max c.x c.y) c.z := le_max_right _ _
    have b1 : min (min c.x c.y) c.z ≤ c.x := (min_le_left _ _).trans (min_le_left _ _)
    have b2 : min (min c.x c.y) c.z ≤ c.y := (min_le_left _ _).trans (min_le_right _ _)
    have b3 : min (min c.x c.y) c.z ≤ c.z := min_le_right _ _
    constructor <;> linarith
  · rintro ⟨h1, h2⟩
    rw [h1, h2]
    simp

theorem delta_nonneg (c : V3 K) : 0 ≤ max (max c.x c.y) c.z - min (min c.x c.y) c.z := by
  have a1 : c.x ≤ max (max c.x c.y) c.z := le_max_of_le_left (le_max_left _ _)
  have b1 : min (min c.x c.y) c.z ≤ c.x := (min_le_left _ _).trans (min_le_left _ _)
  linarith

variable [FloorRing K]

theorem fromHSV_spec {h s v : K} (a : 0 ≤ h) (b : h < 1) (hs : tolerance ≤ s) :
    fromHSV (some h) s v = some ⟨(hsvColor h s v).x, (hsvColor h s v).y, (hsvColor h s v).z, 1⟩ := by
  have t := tolerance_pos (K := K)
  have e : equivalent s 0 = false := (equivalent_zero (by linarith)).2 hs
  have f1 := Int.floor_le (h * 6)
  have f2 := Int.lt_floor_add_one (h * 6)
  have n0 : 0 ≤ ⌊h * 6⌋ := Int.floor_nonneg.2 (by linarith)
  have n6 : ⌊h * 6⌋ < 6 := Int.floor_lt.2 (by push_cast; linarith)
  simp only [fromHSV, e, Option.bind_some]
  rw [if_neg (by simp), if_pos ⟨n0, by omega⟩]
  congr 1
  generalize ⌊h * 6⌋ = n at *
  interval_cases n
  · rw [hsvColor, hue0 (h := h) (by push_cast at f1; linarith) (by push_cast at f2; linarith)]
    simp only [sectorColor, Int.toNat_zero, V4.mk.injEq]
    refine ⟨?_, ?_, ?_, trivial⟩ <;> push_cast <;> ring
  · rw [hsvColor, hue1 (h := h) (by push_cast at f1; linarith) (by push_cast at f2; linarith)]
    simp only [sectorColor, Int.toNat_one, V4.mk.injEq]
    refine ⟨?_, ?_, ?_, trivial⟩ <;> push_cast <;> ring
  · rw [hsvColor, hue2 (h := h) (by push_cast at f1; linarith) (by push_cast at f2; linarith)]
    rw [show (2 : Int).toNat = 2 from rfl]
    simp only [sectorColor, V4.mk.injEq]
    refine ⟨?_, ?_, ?_, trivial⟩ <;> push_cast <;> ring
  · rw [hsvColor, hue3 (h := h) (by push_cast at f1; linarith) (by push_cast at f2; linarith)]
    rw [show (3 : Int).toNat = 3 from rfl]
    simp only [sectorColor, V4.mk.injEq]
    refine ⟨?_, ?_, ?_, trivial⟩ <;> push_cast <;> ring
  · rw [hsvColor, hue4 (h := h) (by push_cast at f1; linarith) (by push_cast at f2; linarith)]
    rw [show (4 : Int).toNat = 4 from rfl]
    simp only [sectorColor, V4.mk.injEq]
    refine ⟨?_, ?_, ?_, trivial⟩ <;> push_cast <;> ring
  · rw [hsvColor, hue5 (h := h) (by push_cast at f1; linarith) (by push_cast at f2; linarith)]
    rw [show (5 : Int).toNat = 5 from rfl]
    simp only [sectorColor, V4.mk.injEq]
    refine ⟨?_, ?_, ?_, trivial⟩ <;> push_cast <;> ring

/-! ## Bytes -/

theorem toByte_iff (v : K) (h : 0 ≤ v) (n : Nat) : toByte v = some n ↔ n ≤ 255 ∧ (n : K) ≤ v ∧ v < n + 1 := by
  have hn : 0 ≤ ⌊v⌋ := Int.floor_nonneg.2 h
  unfold toByte
  constructor
  · intro e
    split_ifs at e with hc
    cases e
    have e : ((⌊v⌋.toNat : Nat) : K) = (⌊v⌋ : K) := by
      rw [← Int.cast_natCast, Int.toNat_of_nonneg hn]
    have l : ⌊v⌋ < 256 := Int.floor_lt.2 (by push_cast; exact hc.2)
    rw [e]
    exact ⟨by omega, Int.floor_le v, Int.lt_floor_add_one v⟩
  · rintro ⟨h1, h2, h3⟩
    have : (n : K) ≤ 255 := by exact_mod_cast h1
    rw [if_pos ⟨by linarith, by linarith⟩]
    have : ⌊v⌋ = (n : Int) := Int.floor_eq_iff.2 ⟨by push_cast; exact h2, by push_cast; exact h3⟩
    rw [this]
    rfl

theorem toByte_some (v : K) (h : 0 ≤ v) (h2 : v < 256) : ∃ n, toByte v = some n ∧ n ≤ 255 ∧ (n : K) ≤ v ∧ v < n + 1 := by
  refine ⟨⌊v⌋.toNat, if_pos ⟨by linarith, h2⟩, ?_⟩
  exact (toByte_iff v h _).1 (if_pos ⟨by linarith, h2⟩)

theorem component_some (f : K) (h : 0 ≤ f) (h2 : f ≤ 1) : ∃ n, component f = some n ∧ IsByte f n := by
  obtain ⟨n, e, a, b, c⟩ := toByte_some (f * 255) (by linarith) (by linarith)
  exact ⟨n, e, a, by linarith, by linarith⟩

theorem component_byte (n : Nat) (h : n ≤ 255) : component ((n : K) / 255) = some n := by
  unfold component
  rw [div_mul_cancel₀ _ (by norm_num), toByte_iff _ (by positivity)]
  exact ⟨h, le_refl _, by linarith⟩

end

/-! ## Single precision -/

theorem roundEven_error (q : ℚ) : |(roundEven q : ℚ) - q| ≤ 1 / 2 := by
  have a : (q.floor : ℚ) ≤ q := Int.floor_le q
  have b : q < q.floor + 1 := Int.lt_floor_add_one q
  unfold roundEven
  dsimp only
  split_ifs with h1 h2 h3
  · rw [abs_le]; constructor <;> linarith
  · push_cast; rw [abs_le]; constructor <;> linarith
  · rw [abs_le]; constructor <;> linarith
  · push_cast; rw [abs_le]; constructor <;> linarith

theorem digits_spec {q : ℚ} (h1 : 1 / 2 ^ 17 ≤ q) (h2 : q < 2 ^ 23) : 2 ^ 23 ≤ q * 2 ^ digits q ∧ q * 2 ^ digits q < 2 ^ 24 := by
  unfold digits
  cases e : (List.range 41).find? fun k => decide (8388608 ≤ q * 2 ^ k) with
  | none =>
    have := List.find?_eq_none.1 e 40 (by simp)
    simp only [decide_eq_true_eq, not_le] at this
    norm_num at this h1
    linarith
  | some k =>
    have s := List.find?_some e
    simp only [decide_eq_true_eq] at s
    simp only [Option.getD_some]
    refine ⟨by norm_num at s ⊢; linarith, ?_⟩
    cases k with
    | zero => norm_num at h2 ⊢; linarith
    | succ k =>
      have hk : k + 1 ≤ 40 := by
        have := List.mem_of_find?_eq_some e
        simp at this
        omega
      have := (List.find?_range_eq_some.1 e).2.2 k (by omega)
      simp only [Bool.not_eq_true', decide_eq_false_iff_not, not_le] at this
      rw [pow_succ]
      norm_num
      linarith

theorem f32_spec {q : ℚ} (h1 : 1 / 2 ^ 17 ≤ q) (h2 : q < 2 ^ 23) :
    (∃ (m : Int) (k : Nat), f32 q = m / 2 ^ k ∧ 0 ≤ m ∧ m ≤ 2 ^ 24) ∧ |f32 q - q| ≤ q / 2 ^ 24 := by
  have q0 : q ≠ 0 := by
    rintro rfl
    norm_num at h1
  obtain ⟨a, b⟩ := digits_spec h1 h2
  have r := roundEven_error (q * 2 ^ digits q)
  have p : (0 : ℚ) < 2 ^ digits q := by positivity
  rw [f32, if_neg q0]
  have r' := abs_le.1 r
  refine ⟨⟨_, _, rfl, ?_, ?_⟩, ?_⟩
  · have : (-1 : ℚ) < roundEven (q * 2 ^ digits q) := by linarith [r'.1]
    have : (-1 : Int) < roundEven (q * 2 ^ digits q) := by exact_mod_cast this
    omega
  · have : (roundEven (q * 2 ^ digits q) : ℚ) < 2 ^ 24 + 1 := by linarith [r'.2]
    have : roundEven (q * 2 ^ digits q) < 2 ^ 24 + 1 := by exact_mod_cast this
    omega
  · have e : (roundEven (q * 2 ^ digits q) : ℚ) / 2 ^ digits q - q = (roundEven (q * 2 ^ digits q) - q * 2 ^ digits q) / 2 ^ digits q := by
      field_simp
    rw [e, abs_div, abs_of_pos p, div_le_iff₀ p]
    refine r.trans ?_
    have : (1 : ℚ) / 2 = 2 ^ 23 / 2 ^ 24 := by norm_num
    rw [this, div_mul_eq_mul_div]
    exact div_le_div_of_nonneg_right a (by norm_num)

end Verif.FColor
