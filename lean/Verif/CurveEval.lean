import Verif.CurveLemmas

/-! # Animation curves: definedness and infinity, lemmas -/

namespace Verif.Curve

variable {K : Type} [Field K] [LinearOrder K] [IsStrictOrderedRing K]

theorem insertIdx_take_drop {α : Type} (l : List α) (it : Nat) (h : it ≤ l.length) (x : α) : l.insertIdx it x = l.take it ++ x :: l.drop it := by
  induction l generalizing it with
  | nil => simp at h; subst h; rfl
  | cons a l ih =>
    cases it with
    | zero => rfl
    | succ it => simp at h; simp [ih it h]

omit [Field K] [IsStrictOrderedRing K] in
theorem findPlace_spec (x : K) : ∀ (ks : List (Key K)) (i : Nat), ∃ m, findPlace x ks i = i + m ∧ m ≤ ks.length ∧ (∀ k ∈ ks.take m, k.input ≤ x) ∧
    ∀ k, ks[m]? = some k → x < k.input := by
  intro ks
  induction ks with
  | nil => intro i; exact ⟨0, rfl, by simp, by simp, by simp⟩
  | cons k ks ih =>
    intro i
    rw [findPlace]
    by_cases h : k.input > x
    · rw [if_pos h]
      exact ⟨0, rfl, by simp, by simp, by intro k' hk'; simp at hk'; subst hk'; exact h⟩
    · rw [if_neg h]
      obtain ⟨m, m1, m2, m3, m4⟩ := ih (i + 1)
      refine ⟨m + 1, by omega, by simp; omega, ?_, by simpa using m4⟩
      intro k' hk'
      simp at hk'
      rcases hk' with rfl | hk'
      · exact not_lt.mp h
      · exact m3 k' hk'

omit [IsStrictOrderedRing K] in
theorem clampDiv_some {a : K} (ha : 0 < a) (b : K) : ∃ y, clampDiv a b = some y := by
  by_cases hb : b = 0
  · exact ⟨100, by rw [clampDiv, if_pos hb, if_pos ha]⟩
  · exact ⟨_, by rw [clampDiv, if_neg hb]⟩

omit [IsStrictOrderedRing K] in
theorem div_some {a b : K} (hb : b ≠ 0) : div a b = some (a / b) := by rw [div, if_neg hb]

theorem segment_some (twoD : Bool) {n : Nat} (hn : 12 ≤ n) (first : K) (prev : Option (Key K)) {s e : Key K} (next : Option (Key K)) (x : K) (h : s.input < e.input) :
    ∃ y, segment twoD n first prev s e next x = some y := by
  have hlin : ∃ y, linearSeg s e x = some y := by
    rw [linearSeg, div_some (ne_of_gt (sub_pos.mpr h))]
    exact ⟨_, rfl⟩
  have hbez : ∀ c, ∃ y, bezierSeg twoD n s e c x = some y := by
    intro c
    rw [bezierSeg, div_some (ne_of_gt (sub_pos.mpr h)), Option.bind_some]
    cases twoD with
    | true =>
      obtain ⟨t, ht, _⟩ := findT_ok (p0 := s.input) (p1 := s.outTangent.1) (p2 := c.1) (p3 := e.input) (x := x) ((x - s.input) / (e.input - s.input)) hn
      rw [if_pos rfl, ht]
      exact ⟨_, rfl⟩
    | false =>
      obtain ⟨y1, h1⟩ := clampDiv_some (sub_pos.mpr h) (s.outTangent.1 - s.input)
      obtain ⟨y2, h2⟩ := clampDiv_some (sub_pos.mpr h) (e.input - c.1)
      rw [if_neg (by simp), h1, Option.bind_some, h2]
      exact ⟨_, rfl⟩
  have htcb : ∀ c, ∃ y, tcbSeg twoD n first prev s e c x = some y := by
    intro c
    rw [tcbSeg, div_some (ne_of_gt (sub_pos.mpr h)), Option.bind_some]
    cases twoD with
    | true =>
      obtain ⟨t, ht, _⟩ := findT_ok (p0 := s.input) (p1 := s.input - (rightTangent prev s (some e)).1) (p2 := c.1) (p3 := e.input) (x := x) ((x - first) / (e.input - s.input)) hn
      rw [if_pos rfl, ht]
      exact ⟨_, rfl⟩
    | false =>
      rw [if_neg (by simp)]
      exact ⟨_, rfl⟩
  rw [segment]
  split <;> first | exact hlin | exact hbez _ | exact htcb _ | exact ⟨_, rfl⟩

theorem inside_some (twoD : Bool) {n : Nat} (hn : 12 ≤ n) {keys : List (Key K)} {first last : Key K} (hs : Sorted keys) (h0 : keys[0]? = some first)
    (hl : keys[keys.length - 1]? = some last) {x : K} (hx : x ≤ last.input) : ∃ y, inside twoD n keys first x = some y := by
  by_cases h : x ≤ first.input
  · exact ⟨_, inside_first twoD n hs h0 h⟩
  · obtain ⟨i, s, e, h1, h2, h3, h4⟩ := exists_interval hs h0 hl (not_le.mp h) hx
    rw [inside_at twoD n hs h1 h2 h3 h4]
    exact segment_some twoD hn _ _ _ _ (hs.lt (by omega) h1 h2)

variable [FloorRing K]

/-- The number of cycles that bring a time before the first key into the range. -/
theorem ceil_before {a b x : K} (hab : a < b) (hx : x < a) : ∃ m : ℕ, 0 < m ∧ ⌈(a - x) / (b - a)⌉ = (m : ℤ) ∧ a ≤ x + m * (b - a) ∧ x + m * (b - a) < b := by
  have hd : 0 < b - a := sub_pos.mpr hab
  have hq : 0 < (a - x) / (b - a) := _root_.div_pos (sub_pos.mpr hx) hd
  have hc : 0 < ⌈(a - x) / (b - a)⌉ := Int.ceil_pos.mpr hq
  refine ⟨⌈(a - x) / (b - a)⌉.toNat, by omega, (Int.toNat_of_nonneg (le_of_lt hc)).symm, ?_, ?_⟩
  all_goals
    have e : ((⌈(a - x) / (b - a)⌉.toNat : ℕ) : K) = (⌈(a - x) / (b - a)⌉ : K) := by
      rw [← Int.cast_natCast, Int.toNat_of_nonneg (le_of_lt hc)]
    rw [e]
  · have := Int.le_ceil ((a - x) / (b - a))
    rw [div_le_iff₀ hd] at this
    linarith
  · have := Int.ceil_lt_add_one ((a - x) / (b - a))
    have h2 : (⌈(a - x) / (b - a)⌉ : K) - 1 < (a - x) / (b - a) := by linarith
    rw [lt_div_iff₀ hd] at h2
    linarith

/-- The number of cycles that bring a time behind the last key into the range. -/
theorem ceil_after {a b x : K} (hab : a < b) (hx : b < x) : ∃ m : ℕ, 0 < m ∧ ⌈(x - b) / (b - a)⌉ = (m : ℤ) ∧ a < x - m * (b - a) ∧ x - m * (b - a) ≤ b := by
  have hd : 0 < b - a := sub_pos.mpr hab
  have hq : 0 < (x - b) / (b - a) := _root_.div_pos (sub_pos.mpr hx) hd
  have hc : 0 < ⌈(x - b) / (b - a)⌉ := Int.ceil_pos.mpr hq
  refine ⟨⌈(x - b) / (b - a)⌉.toNat, by omega, (Int.toNat_of_nonneg (le_of_lt hc)).symm, ?_, ?_⟩
  all_goals
    have e : ((⌈(x - b) / (b - a)⌉.toNat : ℕ) : K) = (⌈(x - b) / (b - a)⌉ : K) := by
      rw [← Int.cast_natCast, Int.toNat_of_nonneg (le_of_lt hc)]
    rw [e]
  · have := Int.ceil_lt_add_one ((x - b) / (b - a))
    have h2 : (⌈(x - b) / (b - a)⌉ : K) - 1 < (x - b) / (b - a) := by linarith
    rw [lt_div_iff₀ hd] at h2
    linarith
  · have := Int.le_ceil ((x - b) / (b - a))
    rw [div_le_iff₀ hd] at this
    linarith

/-- At the last key, a curve that repeats has the value from inside. -/
theorem evalAfter_last (twoD : Bool) (n : Nat) {keys : List (Key K)} {a c d : Key K} (h : a.input < d.input) {post : Infin}
    (hp : post = .cycle ∨ post = .cycleRelative ∨ post = .oscillate) : evalAfter twoD n keys post a c d d.input = inside twoD n keys a d.input := by
  have hne : d.input - a.input ≠ 0 := ne_of_gt (sub_pos.mpr h)
  have hne2 : 2 * (d.input - a.input) ≠ 0 := mul_ne_zero two_ne_zero hne
  rcases hp with rfl | rfl | rfl
  · simp [evalAfter, div_some hne]
  · simp [evalAfter, div_some hne]
  · simp [evalAfter, div_some hne2]
    congr 1
    rw [abs_of_pos (sub_pos.mpr h)]
    ring

omit [FloorRing K] [IsStrictOrderedRing K] [Field K] in
theorem Sorted.ends {keys : List (Key K)} {a b c d : Key K} (hs : Sorted keys) (h : Ends keys a b c d) : a.input < d.input ∧ a.input < b.input ∧ c.input < d.input :=
  ⟨hs.lt (by have := h.len; omega) h.first h.last, hs.lt (by omega) h.first h.second, hs.lt (by have := h.len; omega) h.beforeLast h.last⟩

end Verif.Curve
