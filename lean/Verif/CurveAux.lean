import Verif.CurveSpec
import Verif.CurveEval
import Mathlib.Data.Rat.Floor
import Mathlib.Algebra.Order.Field.Rat

/-! # Lemmas for the properties in CurveProps -/

namespace Verif.Curve

variable {K : Type} [Field K] [LinearOrder K]

variable [IsStrictOrderedRing K] [FloorRing K]

omit [IsStrictOrderedRing K] in
/-- The value inside of a curve. -/
theorem evaluate_inside (twoD : Bool) (n : Nat) (pre post : Infin) {keys : List (Key K)} {a b c d : Key K} (h : Ends keys a b c d) {x : K}
    (hx1 : a.input ≤ x) (hx2 : x < d.input) : evaluate twoD n pre post keys x = inside twoD n keys a x := by
  rw [evaluate_ends h, if_neg (not_lt.mpr hx1), if_neg (not_le.mpr hx2)]

theorem evaluate_between (twoD : Bool) (n : Nat) (pre post : Infin) {keys : List (Key K)} (hs : Sorted keys) {i : Nat} {s e : Key K} (h1 : keys[i]? = some s)
    (h2 : keys[i + 1]? = some e) {x : K} (hx1 : s.input < x) (hx2 : x < e.input) :
    ∃ first : K, evaluate twoD n pre post keys x = segment twoD n first (if i = 0 then none else keys[i - 1]?) s e keys[i + 2]? x := by
  have hlen : i + 1 < keys.length := (List.getElem?_eq_some_iff.mp h2).1
  obtain ⟨a, b, c, d, h⟩ := exists_ends (keys := keys) (by omega)
  have ha : a.input ≤ s.input := by
    by_cases hi : i = 0
    · subst hi; rw [h.first] at h1; cases h1; exact le_refl _
    · exact le_of_lt (hs.lt (by omega) h.first h1)
  have hd : e.input ≤ d.input := by
    by_cases hi : i + 1 = keys.length - 1
    · have := h.last; rw [← hi, h2] at this; cases this; exact le_refl _
    · exact le_of_lt (hs.lt (by omega) h2 h.last)
  exact ⟨a.input, by rw [evaluate_inside twoD n pre post h (by linarith) (by linarith), inside_at twoD n hs h1 h2 hx1 (le_of_lt hx2)]⟩

omit [FloorRing K] in
theorem bezierX_bounds {p0 p1 p2 p3 lo hi t : K} (h0 : lo ≤ p0 ∧ p0 ≤ hi) (h1 : lo ≤ p1 ∧ p1 ≤ hi) (h2 : lo ≤ p2 ∧ p2 ≤ hi) (h3 : lo ≤ p3 ∧ p3 ≤ hi) (ht0 : 0 ≤ t) (ht1 : t ≤ 1) :
    lo ≤ bezierX p0 p1 p2 p3 t ∧ bezierX p0 p1 p2 p3 t ≤ hi := by
  have hu : 0 ≤ 1 - t := by linarith
  have a0 : 0 ≤ (1 - t) * (1 - t) * (1 - t) := by positivity
  have a1 : 0 ≤ 3 * t * (1 - t) * (1 - t) := by positivity
  have a2 : 0 ≤ 3 * t * t * (1 - t) := by positivity
  have a3 : 0 ≤ t * t * t := by positivity
  have hsum : ∀ c : K, c = c * ((1 - t) * (1 - t) * (1 - t)) + c * (3 * t * (1 - t) * (1 - t)) + c * (3 * t * t * (1 - t)) + c * (t * t * t) := by intro c; ring
  have hb : bezierX p0 p1 p2 p3 t = p0 * ((1 - t) * (1 - t) * (1 - t)) + p1 * (3 * t * (1 - t) * (1 - t)) + p2 * (3 * t * t * (1 - t)) + p3 * (t * t * t) := by
    rw [bezierX]; ring
  constructor
  · rw [hb, hsum lo]
    have := mul_le_mul_of_nonneg_right h0.1 a0
    have := mul_le_mul_of_nonneg_right h1.1 a1
    have := mul_le_mul_of_nonneg_right h2.1 a2
    have := mul_le_mul_of_nonneg_right h3.1 a3
    linarith
  · rw [hb, hsum hi]
    have := mul_le_mul_of_nonneg_right h0.2 a0
    have := mul_le_mul_of_nonneg_right h1.2 a1
    have := mul_le_mul_of_nonneg_right h2.2 a2
    have := mul_le_mul_of_nonneg_right h3.2 a3
    linarith

theorem sample_sorted : Sorted sample := by rw [Sorted]; decide +kernel

end Verif.Curve
