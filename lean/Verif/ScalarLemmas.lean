import Verif.ScalarSpec
import Verif.GeoRotLemmas
import Mathlib.Tactic.Linarith
import Mathlib.Tactic.Ring
import Mathlib.Tactic.FieldSimp
import Mathlib.Algebra.Order.Archimedean.Basic

/-!
# Lemmas about the numeric helpers
-/

namespace Verif.FScalar

open Verif.Geo (V3 V4)

section Wrap
variable {K : Type} [Field K] [LinearOrder K] [IsStrictOrderedRing K]

theorem wrapDown_spec {mn mx : K} (h : mn < mx) (n : Nat) (v : K) (hn : v - mx ≤ n * (mx - mn)) :
    ∃ r, wrapDown mx (mx - mn) n v = some r ∧ r ≤ mx ∧ (v ≤ mx → r = v) ∧ (mx < v → mn < r) ∧ ∃ k : ℤ, v = r + k * (mx - mn) := by
  induction n generalizing v with
  | zero =>
    have hv : ¬ v > mx := by simp at hn; linarith
    exact ⟨v, by rw [wrapDown, if_neg hv], not_lt.1 hv, fun _ => rfl, fun h => absurd h hv, 0, by simp⟩
  | succ n ih =>
    rw [wrapDown]
    by_cases hv : v > mx
    · rw [if_pos hv]
      have hn' : v - (mx - mn) - mx ≤ n * (mx - mn) := by push_cast at hn; linarith
      obtain ⟨r, e, h1, h2, h3, k, h4⟩ := ih _ hn'
      refine ⟨r, e, h1, fun h' => absurd hv (not_lt.2 h'), fun _ => ?_, k + 1, by push_cast; linarith⟩
      by_cases h' : v - (mx - mn) ≤ mx
      · rw [h2 h']; linarith
      · exact h3 (not_le.1 h')
    · rw [if_neg hv]
      exact ⟨v, rfl, not_lt.1 hv, fun _ => rfl, fun h => absurd h hv, 0, by simp⟩

theorem wrapUp_spec {mn mx : K} (h : mn < mx) (n : Nat) (v : K) (hn : mn - v ≤ n * (mx - mn)) :
    ∃ r, wrapUp mn (mx - mn) n v = some r ∧ mn ≤ r ∧ (mn ≤ v → r = v) ∧ (v < mn → r < mx) ∧ ∃ k : ℤ, v = r + k * (mx - mn) := by
  induction n generalizing v with
  | zero =>
    have hv : ¬ v < mn := by simp at hn; linarith
    exact ⟨v, by rw [wrapUp, if_neg hv], not_lt.1 hv, fun _ => rfl, fun h => absurd h hv, 0, by simp⟩
  | succ n ih =>
    rw [wrapUp]
    by_cases hv : v < mn
    · rw [if_pos hv]
      have hn' : mn - (v + (mx - mn)) ≤ n * (mx - mn) := by push_cast at hn; linarith
      obtain ⟨r, e, h1, h2, h3, k, h4⟩ := ih _ hn'
      refine ⟨r, e, h1, fun h' => absurd hv (not_lt.2 h'), fun _ => ?_, k - 1, by push_cast; linarith⟩
      by_cases h' : mn ≤ v + (mx - mn)
      · rw [h2 h']; linarith
      · exact h3 (not_le.1 h')
    · rw [if_neg hv]
      exact ⟨v, rfl, not_lt.1 hv, fun _ => rfl, fun h => absurd h hv, 0, by simp⟩

theorem wrap_spec [Archimedean K] {mn mx : K} (h : mn < mx) (v : K) :
    ∃ r, (∃ N, ∀ n ≥ N, wrap n v mn mx = some r) ∧ Wrapped v mn mx r ∧ (mx < v → mn < r) ∧ (v < mn → r < mx) ∧ (mn ≤ v ∧ v ≤ mx → r = v) := by
  have hd : 0 < mx - mn := by linarith
  obtain ⟨N1, hN1⟩ := exists_nat_ge ((v - mx) / (mx - mn))
  obtain ⟨N2, hN2⟩ := exists_nat_ge ((mn - v) / (mx - mn))
  rw [div_le_iff₀ hd] at hN1 hN2
  have key : ∀ n : Nat, n ≥ max N1 N2 → v - mx ≤ n * (mx - mn) ∧ mn - v ≤ n * (mx - mn) := by
    intro n hn
    have a : (N1 : K) ≤ n := by exact_mod_cast (le_max_left N1 N2).trans hn
    have b : (N2 : K) ≤ n := by exact_mod_cast (le_max_right N1 N2).trans hn
    exact ⟨hN1.trans (mul_le_mul_of_nonneg_right a hd.le), hN2.trans (mul_le_mul_of_nonneg_right b hd.le)⟩
  rcases lt_or_ge mx v with hv | hv
  · -- too large
    have P : ∀ n ≥ max N1 N2, ∃ r, wrap n v mn mx = some r ∧ mn < r ∧ r ≤ mx ∧ ∃ k : ℤ, v = r + k * (mx - mn) := by
      intro n hn
      obtain ⟨r, e, h1, _, h3, h4⟩ := wrapDown_spec h n v (key n hn).1
      obtain ⟨r', e', _, h2', _, _⟩ := wrapUp_spec h n r (by
        have := h3 hv
        have : (0 : K) ≤ n * (mx - mn) := mul_nonneg (Nat.cast_nonneg n) hd.le
        linarith)
      have := h2' (h3 hv).le
      subst this
      exact ⟨r', by rw [wrap, e]; exact e', h3 hv, h1, h4⟩
    obtain ⟨r, _, a, b, k, c⟩ := P _ le_rfl
    refine ⟨r, ⟨max N1 N2, fun n hn => ?_⟩, ⟨a.le, b, k, c⟩, fun _ => a, fun h' => by linarith, fun h' => by linarith [h'.2]⟩
    obtain ⟨r', e', a', b', k', c'⟩ := P n hn
    have : (k : K) = k' := by
      have e : ((k : K) - k') * (mx - mn) = r' - r := by linarith
      have : k = k' := by
        by_contra hk
        rcases lt_or_gt_of_ne hk with hk | hk
        · have : (k : K) + 1 ≤ k' := by exact_mod_cast hk
          nlinarith
        · have : (k' : K) + 1 ≤ k := by exact_mod_cast hk
          nlinarith
      rw [this]
    rw [e']
    rw [this] at c
    congr 1
    linarith
  · rcases lt_or_ge v mn with hu | hu
    · have P : ∀ n ≥ max N1 N2, ∃ r, wrap n v mn mx = some r ∧ mn ≤ r ∧ r < mx ∧ ∃ k : ℤ, v = r + k * (mx - mn) := by
        intro n hn
        obtain ⟨r, e, _, h2, _, _⟩ := wrapDown_spec h n v (key n hn).1
        have := h2 hv
        subst this
        obtain ⟨r', e', h1', _, h3', h4'⟩ := wrapUp_spec h n r (key n hn).2
        exact ⟨r', by rw [wrap, e]; exact e', h1', h3' hu, h4'⟩
      obtain ⟨r, _, a, b, k, c⟩ := P _ le_rfl
      refine ⟨r, ⟨max N1 N2, fun n hn => ?_⟩, ⟨a, b.le, k, c⟩, fun h' => by linarith, fun _ => b, fun h' => by linarith [h'.1]⟩
      obtain ⟨r', e', a', b', k', c'⟩ := P n hn
      have : (k : K) = k' := by
        have e : ((k : K) - k') * (mx - mn) = r' - r := by linarith
        have : k = k' := by
          by_contra hk
          rcases lt_or_gt_of_ne hk with hk | hk
          · have : (k : K) + 1 ≤ k' := by exact_mod_cast hk
            nlinarith
          · have : (k' : K) + 1 ≤ k := by exact_mod_cast hk
            nlinarith
        rw [this]
      rw [e']
      rw [this] at c
      congr 1
      linarith
    · refine ⟨v, ⟨0, fun n _ => ?_⟩, ⟨hu, hv, 0, by simp⟩, fun h' => by linarith, fun h' => by linarith, fun _ => rfl⟩
      cases n <;> simp [wrap, wrapDown, wrapUp, not_lt.2 hu, not_lt.2 hv]

theorem lengthSquared_eq_zero {b : V3 K} : b.lengthSquared = 0 ↔ b = ⟨0, 0, 0⟩ := by
  constructor
  · intro h
    rw [V3.lengthSquared] at h
    have x := mul_self_nonneg b.x
    have y := mul_self_nonneg b.y
    have z := mul_self_nonneg b.z
    have hx : b.x = 0 := mul_self_eq_zero.1 (by linarith)
    have hy : b.y = 0 := mul_self_eq_zero.1 (by linarith)
    have hz : b.z = 0 := mul_self_eq_zero.1 (by linarith)
    cases b
    simp_all
  · rintro rfl
    simp [V3.lengthSquared]

variable [FloorRing K]

theorem fmod_spec {a b : K} (hb : 0 < b) : ∃ r, fmod a b = some r ∧ 0 ≤ r ∧ r < b ∧ ∃ k : ℤ, a = r + k * b := by
  refine ⟨_, if_neg hb.ne', ?_, ?_, ⌊a / |b|⌋, ?_⟩
  · rw [abs_of_pos hb]
    have := Int.floor_le (a / b)
    rw [le_div_iff₀ hb] at this
    linarith
  · rw [abs_of_pos hb]
    have := Int.lt_floor_add_one (a / b)
    rw [div_lt_iff₀ hb] at this
    linarith
  · rw [abs_of_pos hb]; ring

end Wrap

theorem length_eq (a : V3 ℝ) : a.length * a.length = inner a a := by
  rw [V3.length, inner]
  exact Real.mul_self_sqrt (by nlinarith [mul_self_nonneg a.x, mul_self_nonneg a.y, mul_self_nonneg a.z])

theorem length_pos {a : V3 ℝ} (h : a ≠ ⟨0, 0, 0⟩) : 0 < a.length := by
  rw [V3.length]
  apply Real.sqrt_pos.2
  by_contra h'
  apply h
  have x := mul_self_nonneg a.x
  have y := mul_self_nonneg a.y
  have z := mul_self_nonneg a.z
  have hx : a.x = 0 := mul_self_eq_zero.1 (by linarith)
  have hy : a.y = 0 := mul_self_eq_zero.1 (by linarith)
  have hz : a.z = 0 := mul_self_eq_zero.1 (by linarith)
  cases a
  simp_all

theorem direction {a : V3 ℝ} (h : a ≠ ⟨0, 0, 0⟩) : Direction a ⟨a.x / a.length, a.y / a.length, a.z / a.length⟩ := by
  have hl := length_pos h
  have e := length_eq a
  rw [inner] at e
  refine ⟨?_, a.length, hl, ?_⟩
  · rw [inner]
    field_simp
    linarith
  · cases a
    simp only [V3.mk.injEq]
    refine ⟨?_, ?_, ?_⟩ <;> field_simp

end Verif.FScalar
