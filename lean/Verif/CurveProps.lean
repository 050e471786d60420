import Verif.CurveAux
import Verif.CurveEval
import Mathlib.Data.Rat.Floor
import Mathlib.Algebra.Order.Field.Rat

/-!
# Animation curves: theorems (C34, C35)

`Sorted` keys have strictly increasing times; `Ends keys a b c d` says that `a`, `b` are the first two and `c`, `d` the last two keys.
-/

namespace Verif.Curve

variable {K : Type} [Field K] [LinearOrder K]

/-! ## C34 -/

omit [Field K] in
/-- C34: a key added to keys in the order of time goes behind all keys of the same or an earlier time and before all later keys; no key is lost, and
the index reported is the place of the new key. -/
theorem add_key {keys : List (Key K)} (hs : keys.Pairwise fun a b => a.input ≤ b.input) (key : Key K) :
    ∃ a b, keys = a ++ b ∧ addKey keys key = (a ++ key :: b, a.length) ∧ (∀ k ∈ a, k.input ≤ key.input) ∧ (∀ k ∈ b, key.input < k.input) ∧
      (addKey keys key).1[(addKey keys key).2]? = some key := by
  obtain ⟨m, m1, m2, m3, m4⟩ := findPlace_spec key.input keys 0
  rw [Nat.zero_add] at m1
  have hins := insertIdx_take_drop keys m m2 key
  have hadd : addKey keys key = (keys.take m ++ key :: keys.drop m, (keys.take m).length) := by
    rw [addKey, m1, hins]; simp [m2]
  refine ⟨keys.take m, keys.drop m, by simp, hadd, m3, ?_, ?_⟩
  · intro k hk
    obtain ⟨j, hj⟩ := List.getElem?_of_mem hk
    rw [List.getElem?_drop] at hj
    cases j with
    | zero => exact m4 k (by simpa using hj)
    | succ j =>
      obtain ⟨hlt, e⟩ := List.getElem?_eq_some_iff.mp hj
      have h1 := m4 _ (List.getElem?_eq_getElem (show m < keys.length by omega))
      have h2 := List.pairwise_iff_getElem.mp hs m (m + (j + 1)) (by omega) hlt (by omega)
      rw [e] at h2
      exact lt_of_lt_of_le h1 h2
  · rw [hadd]; simp

/-- What can be done to the keys of a curve. -/
inductive Op (K : Type) where
  | add (key : Key K)
  | delete (index : Nat)

def run (keys : List (Key K)) : Op K → List (Key K)
  | .add key => (addKey keys key).1
  | .delete index => deleteKey keys index

omit [Field K] in
/-- C34: whatever keys are added and deleted, the keys stay in the order of time. -/
theorem history_sorted (ops : List (Op K)) : (ops.foldl run []).Pairwise fun a b => a.input ≤ b.input := by
  have key : ∀ (ops : List (Op K)) (ks : List (Key K)), (ks.Pairwise fun a b => a.input ≤ b.input) → (ops.foldl run ks).Pairwise fun a b => a.input ≤ b.input := by
    intro ops
    induction ops with
    | nil => intro ks h; exact h
    | cons op ops ih =>
      intro ks h
      apply ih
      cases op with
      | add k =>
        obtain ⟨a, b, e1, e2, e3, e4, _⟩ := add_key h k
        show ((addKey ks k).1).Pairwise _
        rw [e2]
        rw [e1, List.pairwise_append] at h
        refine List.pairwise_append.mpr ⟨h.1, List.pairwise_cons.mpr ⟨fun x hx => le_of_lt (e4 x hx), h.2.1⟩, ?_⟩
        intro x hx y hy
        rcases List.mem_cons.mp hy with rfl | hy
        · exact e3 x hx
        · exact h.2.2 x hx y hy
      | delete i => exact h.sublist (List.eraseIdx_sublist _ _)
  exact key ops [] List.Pairwise.nil

/-! ## C35 -/

variable [IsStrictOrderedRing K] [FloorRing K]

/-- C35: sampling a curve whose keys have different times has a defined result, whatever the time, the interpolations and the infinity types, with both
evaluation methods. -/
theorem defined (twoD : Bool) {n : Nat} (hn : 12 ≤ n) (pre post : Infin) {keys : List (Key K)} (hs : Sorted keys) (x : K) :
    ∃ y, evaluate twoD n pre post keys x = some y := by
  by_cases hl : 2 ≤ keys.length
  · obtain ⟨a, b, c, d, h⟩ := exists_ends hl
    obtain ⟨had, hab, hcd⟩ := hs.ends h
    have hne : d.input - a.input ≠ 0 := ne_of_gt (sub_pos.mpr had)
    have hne2 : 2 * (d.input - a.input) ≠ 0 := mul_ne_zero two_ne_zero hne
    have hin : ∀ z, z ≤ d.input → ∃ y, inside twoD n keys a z = some y := fun z hz => inside_some twoD hn hs h.first h.last hz
    rw [evaluate_ends h]
    by_cases hx : x < a.input
    · rw [if_pos hx]
      obtain ⟨m, m1, m2, m3, m4⟩ := ceil_before had hx
      have hcast : ((m : ℤ) : K) = (m : K) := Int.cast_natCast m
      cases pre with
      | constant => exact ⟨_, rfl⟩
      | unknown => exact ⟨_, rfl⟩
      | linear => rw [evalBefore, div_some (ne_of_gt (sub_pos.mpr hab))]; exact ⟨_, rfl⟩
      | cycle => rw [evalBefore, div_some hne, Option.bind_some, m2, hcast]; exact hin _ (le_of_lt m4)
      | cycleRelative =>
        rw [evalBefore, div_some hne, Option.bind_some, m2, hcast]
        obtain ⟨y, hy⟩ := hin _ (le_of_lt m4)
        rw [hy]
        exact ⟨_, rfl⟩
      | oscillate =>
        rw [evalBefore, div_some hne2, Option.bind_some]
        exact hin _ (by linarith [abs_nonneg (x + ⌈(a.input - x) / (2 * (d.input - a.input))⌉ * 2 * (d.input - a.input) - d.input)])
    · rw [if_neg hx]
      by_cases hx2 : x ≥ d.input
      · rw [if_pos hx2]
        cases post with
        | constant => exact ⟨_, rfl⟩
        | unknown => exact ⟨_, rfl⟩
        | linear => rw [evalAfter, div_some (ne_of_lt (sub_neg.mpr hcd))]; exact ⟨_, rfl⟩
        | cycle =>
          rcases eq_or_lt_of_le hx2 with rfl | hgt
          · rw [evalAfter_last twoD n had (Or.inl rfl)]; exact hin _ (le_refl _)
          · obtain ⟨m, m1, m2, m3, m4⟩ := ceil_after had hgt
            rw [evalAfter, div_some hne, Option.bind_some, m2, Int.cast_natCast]; exact hin _ m4
        | cycleRelative =>
          rcases eq_or_lt_of_le hx2 with rfl | hgt
          · rw [evalAfter_last twoD n had (Or.inr (Or.inl rfl))]; exact hin _ (le_refl _)
          · obtain ⟨m, m1, m2, m3, m4⟩ := ceil_after had hgt
            rw [evalAfter, div_some hne, Option.bind_some, m2, Int.cast_natCast]
            obtain ⟨y, hy⟩ := hin _ m4
            rw [hy]
            exact ⟨_, rfl⟩
        | oscillate =>
          rw [evalAfter, div_some hne2, Option.bind_some]
          apply hin
          have h2 : 0 < 2 * (d.input - a.input) := by linarith
          have c1 := Int.le_ceil ((x - d.input) / (2 * (d.input - a.input)))
          have c2 := Int.ceil_lt_add_one ((x - d.input) / (2 * (d.input - a.input)))
          have c2' : (⌈(x - d.input) / (2 * (d.input - a.input))⌉ : K) - 1 < (x - d.input) / (2 * (d.input - a.input)) := by linarith
          rw [div_le_iff₀ h2] at c1
          rw [lt_div_iff₀ h2] at c2'
          have : |x - ⌈(x - d.input) / (2 * (d.input - a.input))⌉ * 2 * (d.input - a.input) - a.input| ≤ d.input - a.input := by
            rw [abs_le]
            constructor <;> linarith
          linarith
      · rw [if_neg hx2]
        exact hin _ (le_of_lt (not_le.mp hx2))
  · rcases keys with _ | ⟨k, _ | ⟨k', ks⟩⟩
    · exact ⟨0, rfl⟩
    · exact ⟨k.output, rfl⟩
    · simp at hl

/-- C35: at the time of a key the value of the curve is that of the key, if it is the first key or if the segment before it is linear. Missing: the keys
behind step and Bezier segments, see `step_violated` and `bezier_violated`. -/
theorem at_key_partial (twoD : Bool) (n : Nat) (pre post : Infin) {keys : List (Key K)} (hs : Sorted keys) {i : Nat} {k : Key K} (hk : keys[i]? = some k)
    (hp : i = 0 ∨ ∃ p, keys[i - 1]? = some p ∧ (p.interp = .linear ∨ (p.interp = .bezier ∨ p.interp = .tcb) ∧ k.interp = .linear)) :
    evaluate twoD n pre post keys k.input = some k.output := by
  by_cases hl : 2 ≤ keys.length
  · obtain ⟨a, b, c, d, h⟩ := exists_ends hl
    obtain ⟨had, hab, hcd⟩ := hs.ends h
    have hne : d.input - a.input ≠ 0 := ne_of_gt (sub_pos.mpr had)
    have hik : i < keys.length := (List.getElem?_eq_some_iff.mp hk).1
    by_cases hi : i = 0
    · subst hi
      have : k = a := by have := h.first; rw [hk] at this; exact Option.some.inj this
      subst this
      rw [evaluate_inside twoD n pre post h (le_refl _) had, inside_first twoD n hs hk (le_refl _)]
    · obtain ⟨p, hp1, hp2⟩ := hp.resolve_left hi
      have hik' : i - 1 + 1 = i := by omega
      have hpk : p.input < k.input := hs.lt (by omega) hp1 hk
      have hin : inside twoD n keys a k.input = some k.output := by
        rw [inside_at twoD n hs hp1 (by rw [hik']; exact hk) hpk (le_refl _)]
        have hne' : k.input - p.input ≠ 0 := ne_of_gt (sub_pos.mpr hpk)
        have hlin : linearSeg p k k.input = some k.output := by
          rw [linearSeg, div_some hne', div_self hne']
          simp
        rw [segment]
        rcases hp2 with e | ⟨e | e, e'⟩
        · rw [e]; exact hlin
        · rw [e, e']; exact hlin
        · rw [e, e']; exact hlin
      have hak : a.input ≤ k.input := le_of_lt (hs.lt (by omega) h.first hk)
      rw [evaluate_ends h, if_neg (not_lt.mpr hak)]
      by_cases hd : k.input ≥ d.input
      · rw [if_pos hd]
        have hkd : k = d := by
          by_cases hii : i = keys.length - 1
          · have := h.last; rw [← hii, hk] at this; exact Option.some.inj this
          · exact absurd (hs.lt (by omega) hk h.last) (not_lt.mpr hd)
        subst hkd
        cases post with
        | constant => rfl
        | unknown => rfl
        | linear => rw [evalAfter, div_some (ne_of_lt (sub_neg.mpr hcd))]; simp
        | cycle => rw [evalAfter_last twoD n had (Or.inl rfl)]; exact hin
        | cycleRelative => rw [evalAfter_last twoD n had (Or.inr (Or.inl rfl))]; exact hin
        | oscillate => rw [evalAfter_last twoD n had (Or.inr (Or.inr rfl))]; exact hin
      · rw [if_neg hd]; exact hin
  · rcases keys with _ | ⟨k', _ | ⟨k'', ks⟩⟩
    · simp at hk
    · cases i with
      | zero => simp at hk; subst hk; rfl
      | succ i => simp at hk
    · simp at hl

/-- C35: the last key, with a constant or linear infinity behind it. -/
theorem at_last (twoD : Bool) (n : Nat) (pre : Infin) {post : Infin} {keys : List (Key K)} (hs : Sorted keys) {d : Key K} (hd : keys[keys.length - 1]? = some d)
    (hp : post = .constant ∨ post = .linear ∨ post = .unknown) : evaluate twoD n pre post keys d.input = some d.output := by
  by_cases hl : 2 ≤ keys.length
  · obtain ⟨a, b, c, d', h⟩ := exists_ends hl
    have : d' = d := by have := h.last; rw [hd] at this; exact (Option.some.inj this).symm
    subst this
    obtain ⟨had, hab, hcd⟩ := hs.ends h
    rw [evaluate_ends h, if_neg (not_lt.mpr (le_of_lt had)), if_pos (le_refl _)]
    rcases hp with rfl | rfl | rfl
    · rfl
    · rw [evalAfter, div_some (ne_of_lt (sub_neg.mpr hcd))]; simp
    · rfl
  · rcases keys with _ | ⟨k', _ | ⟨k'', ks⟩⟩
    · simp at hd
    · simp at hd; subst hd; rfl
    · simp at hl

omit [IsStrictOrderedRing K] in
/-- C35: with constant infinity the first value holds before the first key and the last value behind the last key. -/
theorem constant_infinity (twoD : Bool) (n : Nat) {keys : List (Key K)} {a b c d : Key K} (h : Ends keys a b c d) (had : a.input ≤ d.input) (x : K) :
    (∀ post, x < a.input → evaluate twoD n .constant post keys x = some a.output) ∧ (∀ pre, d.input ≤ x → evaluate twoD n pre .constant keys x = some d.output) := by
  constructor
  · intro post hx
    rw [evaluate_ends h, if_pos hx]; rfl
  · intro pre hx
    rw [evaluate_ends h, if_neg (not_lt.mpr (le_trans had hx)), if_pos hx]; rfl

/-- C35: with linear infinity the line through the last two keys goes on behind the last key. Missing: the line through the first two keys before the
first key, see `pre_linear_violated`. -/
theorem linear_infinity_partial (twoD : Bool) (n : Nat) (pre : Infin) {keys : List (Key K)} (hs : Sorted keys) {a b c d : Key K} (h : Ends keys a b c d) {x : K}
    (hx : d.input ≤ x) : evaluate twoD n pre .linear keys x = some (d.output + (x - d.input) * ((d.output - c.output) / (d.input - c.input))) := by
  obtain ⟨had, hab, hcd⟩ := hs.ends h
  rw [evaluate_ends h, if_neg (not_lt.mpr (le_trans (le_of_lt had) hx)), if_pos hx, evalAfter, div_some (ne_of_lt (sub_neg.mpr hcd))]
  simp only [Option.map_some, Option.some_inj]
  have h1 : c.input - d.input ≠ 0 := ne_of_lt (sub_neg.mpr hcd)
  have h2 : d.input - c.input ≠ 0 := ne_of_gt (sub_pos.mpr hcd)
  field_simp
  ring

/-- C35: with cycle infinity the curve repeats: a time outside has the value of the time inside that is a whole number of curve lengths away. -/
theorem cycle_infinity (twoD : Bool) (n : Nat) {keys : List (Key K)} (hs : Sorted keys) {a b c d : Key K} (h : Ends keys a b c d) (x : K) :
    (∀ post, x < a.input → ∃ m : ℕ, a.input ≤ x + m * (d.input - a.input) ∧ x + m * (d.input - a.input) < d.input ∧
      evaluate twoD n .cycle post keys x = evaluate twoD n .cycle post keys (x + m * (d.input - a.input))) ∧
    (∀ pre, d.input < x → ∃ m : ℕ, a.input < x - m * (d.input - a.input) ∧ x - m * (d.input - a.input) ≤ d.input ∧
      evaluate twoD n pre .cycle keys x = evaluate twoD n pre .cycle keys (x - m * (d.input - a.input))) := by
  obtain ⟨had, hab, hcd⟩ := hs.ends h
  have hne : d.input - a.input ≠ 0 := ne_of_gt (sub_pos.mpr had)
  constructor
  · intro post hx
    obtain ⟨m, m1, m2, m3, m4⟩ := ceil_before had hx
    refine ⟨m, m3, m4, ?_⟩
    rw [evaluate_ends h, if_pos hx, evalBefore, div_some hne, Option.bind_some, m2, Int.cast_natCast, evaluate_inside twoD n .cycle post h m3 m4]
  · intro pre hx
    obtain ⟨m, m1, m2, m3, m4⟩ := ceil_after had hx
    refine ⟨m, m3, m4, ?_⟩
    rw [evaluate_ends h, if_neg (not_lt.mpr (le_of_lt (lt_trans had hx))), if_pos (le_of_lt hx), evalAfter, div_some hne, Option.bind_some, m2, Int.cast_natCast]
    rcases eq_or_lt_of_le m4 with e | hlt
    · rw [e, evaluate_ends h, if_neg (not_lt.mpr (le_of_lt had)), if_pos (le_refl _), evalAfter_last twoD n had (Or.inl rfl)]
    · rw [evaluate_inside twoD n pre .cycle h (le_of_lt m3) hlt]

/-- C35: with relative cycle infinity every repetition is moved by the difference of the last and the first value. -/
theorem cycle_relative_infinity (twoD : Bool) (n : Nat) {keys : List (Key K)} (hs : Sorted keys) {a b c d : Key K} (h : Ends keys a b c d) (x : K) :
    (∀ post, x < a.input → ∃ m : ℕ, a.input ≤ x + m * (d.input - a.input) ∧ x + m * (d.input - a.input) < d.input ∧
      evaluate twoD n .cycleRelative post keys x =
        (evaluate twoD n .cycleRelative post keys (x + m * (d.input - a.input))).map fun y => y - m * (d.output - a.output)) ∧
    (∀ pre, d.input < x → ∃ m : ℕ, a.input < x - m * (d.input - a.input) ∧ x - m * (d.input - a.input) ≤ d.input ∧
      evaluate twoD n pre .cycleRelative keys x =
        (evaluate twoD n pre .cycleRelative keys (x - m * (d.input - a.input))).map fun y => y + m * (d.output - a.output)) := by
  obtain ⟨had, hab, hcd⟩ := hs.ends h
  have hne : d.input - a.input ≠ 0 := ne_of_gt (sub_pos.mpr had)
  constructor
  · intro post hx
    obtain ⟨m, m1, m2, m3, m4⟩ := ceil_before had hx
    refine ⟨m, m3, m4, ?_⟩
    rw [evaluate_ends h, if_pos hx, evalBefore, div_some hne, Option.bind_some, m2, Int.cast_natCast, evaluate_inside twoD n .cycleRelative post h m3 m4]
    congr 1
    funext y
    ring
  · intro pre hx
    obtain ⟨m, m1, m2, m3, m4⟩ := ceil_after had hx
    refine ⟨m, m3, m4, ?_⟩
    have e2 : evaluate twoD n pre .cycleRelative keys (x - m * (d.input - a.input)) = inside twoD n keys a (x - m * (d.input - a.input)) := by
      rcases eq_or_lt_of_le m4 with e | hlt
      · rw [e, evaluate_ends h, if_neg (not_lt.mpr (le_of_lt had)), if_pos (le_refl _), evalAfter_last twoD n had (Or.inr (Or.inl rfl))]
      · rw [evaluate_inside twoD n pre .cycleRelative h (le_of_lt m3) hlt]
    rw [e2, evaluate_ends h, if_neg (not_lt.mpr (le_of_lt (lt_trans had hx))), if_pos (le_of_lt hx), evalAfter, div_some hne, Option.bind_some, m2, Int.cast_natCast]
    congr 1
    funext y
    ring

/-- C35: with oscillating infinity the curve goes forward and backward in turn: a time outside has the value of a time inside, which is an even number of
curve lengths away or is the mirror image at the end of the curve of one that is. -/
theorem oscillate_infinity (twoD : Bool) (n : Nat) {keys : List (Key K)} (hs : Sorted keys) {a b c d : Key K} (h : Ends keys a b c d) (x : K) :
    (∀ post, (post = .oscillate ∨ post = .cycle ∨ post = .cycleRelative) → x < a.input → ∃ (m : ℤ) (y : K), a.input ≤ y ∧ y ≤ d.input ∧
      (y = x + m * (2 * (d.input - a.input)) ∨ y = 2 * d.input - (x + m * (2 * (d.input - a.input)))) ∧
      evaluate twoD n .oscillate post keys x = evaluate twoD n .oscillate post keys y) ∧
    (∀ pre, d.input < x → ∃ (m : ℤ) (y : K), a.input ≤ y ∧ y ≤ d.input ∧
      (y = x - m * (2 * (d.input - a.input)) ∨ y = 2 * a.input - (x - m * (2 * (d.input - a.input)))) ∧
      evaluate twoD n pre .oscillate keys x = evaluate twoD n pre .oscillate keys y) := by
  obtain ⟨had, hab, hcd⟩ := hs.ends h
  have hne2 : 2 * (d.input - a.input) ≠ 0 := mul_ne_zero two_ne_zero (ne_of_gt (sub_pos.mpr had))
  have h2 : 0 < 2 * (d.input - a.input) := by linarith
  have hy : ∀ pre post, (post = .oscillate ∨ post = .cycle ∨ post = .cycleRelative) → ∀ y, a.input ≤ y → y ≤ d.input →
      evaluate twoD n pre post keys y = inside twoD n keys a y := by
    intro pre post hp y y1 y2
    rcases eq_or_lt_of_le y2 with e | hlt
    · rw [e, evaluate_ends h, if_neg (not_lt.mpr (le_of_lt had)), if_pos (le_refl _), evalAfter_last twoD n had (by tauto)]
    · rw [evaluate_inside twoD n pre post h y1 hlt]
  constructor
  · intro post hp hx
    have c1 := Int.le_ceil ((a.input - x) / (2 * (d.input - a.input)))
    have c2 := Int.ceil_lt_add_one ((a.input - x) / (2 * (d.input - a.input)))
    have c2' : (⌈(a.input - x) / (2 * (d.input - a.input))⌉ : K) - 1 < (a.input - x) / (2 * (d.input - a.input)) := by linarith
    rw [div_le_iff₀ h2] at c1
    rw [lt_div_iff₀ h2] at c2'
    set m := ⌈(a.input - x) / (2 * (d.input - a.input))⌉ with hm
    have hab : |x + m * 2 * (d.input - a.input) - d.input| ≤ d.input - a.input := by
      rw [abs_le]; constructor <;> linarith
    refine ⟨m, d.input - |x + m * 2 * (d.input - a.input) - d.input|, by linarith, by linarith [abs_nonneg (x + m * 2 * (d.input - a.input) - d.input)], ?_, ?_⟩
    · rcases abs_choice (x + m * 2 * (d.input - a.input) - d.input) with e | e
      · right; rw [e]; ring
      · left; rw [e]; ring
    · have e1 : evaluate twoD n .oscillate post keys x = inside twoD n keys a (d.input - |x + m * 2 * (d.input - a.input) - d.input|) := by
        rw [evaluate_ends h, if_pos hx, evalBefore, div_some hne2, Option.bind_some]
      rw [e1, hy _ post hp _ (by linarith) (by linarith [abs_nonneg (x + m * 2 * (d.input - a.input) - d.input)])]
  · intro pre hx
    have c1 := Int.le_ceil ((x - d.input) / (2 * (d.input - a.input)))
    have c2 := Int.ceil_lt_add_one ((x - d.input) / (2 * (d.input - a.input)))
    have c2' : (⌈(x - d.input) / (2 * (d.input - a.input))⌉ : K) - 1 < (x - d.input) / (2 * (d.input - a.input)) := by linarith
    rw [div_le_iff₀ h2] at c1
    rw [lt_div_iff₀ h2] at c2'
    set m := ⌈(x - d.input) / (2 * (d.input - a.input))⌉ with hm
    have hab : |x - m * 2 * (d.input - a.input) - a.input| ≤ d.input - a.input := by
      rw [abs_le]; constructor <;> linarith
    refine ⟨m, a.input + |x - m * 2 * (d.input - a.input) - a.input|, by linarith [abs_nonneg (x - m * 2 * (d.input - a.input) - a.input)], by linarith, ?_, ?_⟩
    · rcases abs_choice (x - m * 2 * (d.input - a.input) - a.input) with e | e
      · left; rw [e]; ring
      · right; rw [e]; ring
    · have e1 : evaluate twoD n pre .oscillate keys x = inside twoD n keys a (a.input + |x - m * 2 * (d.input - a.input) - a.input|) := by
        rw [evaluate_ends h, if_neg (not_lt.mpr (le_of_lt (lt_trans had hx))), if_pos (le_of_lt hx), evalAfter, div_some hne2, Option.bind_some]
      rw [e1, hy _ _ (Or.inl rfl) _ (by linarith [abs_nonneg (x - m * 2 * (d.input - a.input) - a.input)]) (by linarith)]

/-- C35: on a linear segment, the curve is the line between the values of its ends. -/
theorem linear_segment (twoD : Bool) (n : Nat) (pre post : Infin) {keys : List (Key K)} (hs : Sorted keys) {i : Nat} {s e : Key K} (h1 : keys[i]? = some s)
    (h2 : keys[i + 1]? = some e) {x : K} (hx1 : s.input < x) (hx2 : x < e.input) (hi : s.interp = .linear ∨ (s.interp = .bezier ∨ s.interp = .tcb) ∧ e.interp = .linear) :
    ∃ t : K, 0 < t ∧ t < 1 ∧ x = (1 - t) * s.input + t * e.input ∧ evaluate twoD n pre post keys x = some ((1 - t) * s.output + t * e.output) := by
  obtain ⟨f, he⟩ := evaluate_between twoD n pre post hs h1 h2 hx1 hx2
  have hd : 0 < e.input - s.input := by linarith
  have hlin : linearSeg s e x = some ((1 - (x - s.input) / (e.input - s.input)) * s.output + (x - s.input) / (e.input - s.input) * e.output) := by
    rw [linearSeg, div_some (ne_of_gt hd)]
    simp only [Option.map_some, Option.some_inj]
    ring
  refine ⟨(x - s.input) / (e.input - s.input), _root_.div_pos (by linarith) hd, (div_lt_one hd).mpr (by linarith), by field_simp; ring, ?_⟩
  rw [he, segment]
  rcases hi with e1 | ⟨e1 | e1, e2⟩
  · rw [e1]; exact hlin
  · rw [e1, e2]; exact hlin
  · rw [e1, e2]; exact hlin

/-- C35: on a step segment, the curve has the value of its start. -/
theorem step_segment (twoD : Bool) (n : Nat) (pre post : Infin) {keys : List (Key K)} (hs : Sorted keys) {i : Nat} {s e : Key K} (h1 : keys[i]? = some s)
    (h2 : keys[i + 1]? = some e) {x : K} (hx1 : s.input < x) (hx2 : x < e.input) (hi : s.interp = .step) : evaluate twoD n pre post keys x = some s.output := by
  obtain ⟨f, he⟩ := evaluate_between twoD n pre post hs h1 h2 hx1 hx2
  rw [he, segment, hi]

/-- C35: on a Bezier segment the curve has the value of the Bezier curve at a parameter whose time is the wanted one, up to the tolerance of the search;
the value stays between the values of the four control points. -/
theorem bezier_segment {n : Nat} (hn : 12 ≤ n) (pre post : Infin) {keys : List (Key K)} (hs : Sorted keys) {i : Nat} {s e : Key K} (h1 : keys[i]? = some s)
    (h2 : keys[i + 1]? = some e) {x : K} (hx1 : s.input < x) (hx2 : x < e.input) (his : s.interp = .bezier) (hie : e.interp = .bezier) :
    ∃ t y, Found s.input s.outTangent.1 e.inTangent.1 e.input x t ∧ y = bezierX s.output s.outTangent.2 e.inTangent.2 e.output t ∧
      evaluate true n pre post keys x = some y ∧
      ∀ lo hi, (∀ p ∈ [s.output, s.outTangent.2, e.inTangent.2, e.output], lo ≤ p ∧ p ≤ hi) → lo ≤ y ∧ y ≤ hi := by
  obtain ⟨f, he⟩ := evaluate_between true n pre post hs h1 h2 hx1 hx2
  have hd : 0 < e.input - s.input := by linarith
  obtain ⟨t, ht, hf⟩ := findT_ok (p0 := s.input) (p1 := s.outTangent.1) (p2 := e.inTangent.1) (p3 := e.input) (x := x) ((x - s.input) / (e.input - s.input)) hn
  refine ⟨t, _, hf, rfl, ?_, ?_⟩
  · rw [he, segment, his, hie]
    simp only []
    rw [bezierSeg, div_some (ne_of_gt hd), Option.bind_some, if_pos rfl, ht]
    simp only [Option.map_some, Option.some_inj, bezierX]
    ring
  · intro lo hi hall
    exact bezierX_bounds (hall _ (by simp)) (hall _ (by simp)) (hall _ (by simp)) (hall _ (by simp)) (le_of_lt hf.1) (le_of_lt hf.2.1)

/-! ## Samples and violations -/

example : Ends sample (key 0 0 .linear) (key 1 2 .step) (key 4 8 .linear) (key 6 0 .linear) := ⟨rfl, rfl, rfl, rfl⟩
example : evaluate true 12 .constant .cycle sample (1 / 2) = some 1 ∧ evaluate true 12 .constant .cycle sample (13 / 2) = some 1 ∧ evaluate true 12 .oscillate .cycle sample (-5) = some 4 ∧
    evaluate true 12 .cycleRelative .linear sample 7 = some (-4) := by decide +kernel
example : ((sample.foldl (fun l k => (addKey l k).1) []).map fun k => k.input) = [0, 1, 2, 3, 4, 6] ∧ (addKey sample (key 2 7 .step)).2 = 3 := by decide +kernel

/-- C35 fails at the keys behind step segments: the curve still has the former value at the time of the key. -/
theorem step_violated : Sorted sample ∧ sample[2]?.map (fun k => (k.input, k.output)) = some (2, 5) ∧ evaluate true 12 .constant .constant sample 2 = some 2 :=
  ⟨sample_sorted, rfl, by decide +kernel⟩

/-- C35 fails at the keys behind Bezier segments: the parameter of the key is not reached. -/
theorem bezier_violated : Sorted sample ∧ sample[3]?.map (fun k => (k.input, k.output)) = some (3, 8) ∧
    ∃ y, evaluate true 12 .constant .constant sample 3 = some y ∧ y ≠ 8 :=
  ⟨sample_sorted, rfl, (evaluate true 12 .constant .constant sample 3).get (by decide +kernel), by decide +kernel, by decide +kernel⟩

/-- C35 fails before the first key with linear infinity: the line through the first two keys goes down to the left, the curve goes up. -/
theorem pre_linear_violated : Sorted sample ∧ evaluate true 12 .linear .constant sample (-1) = some 2 ∧ (0 : ℚ) + (-1 - 0) * ((2 - 0) / (1 - 0)) = -2 :=
  ⟨sample_sorted, by decide +kernel, by norm_num⟩

/-- C35 fails for keys at the same time, which `AddKey` allows: the value at that time is a quotient of zeros. -/
theorem same_time_violated : ∃ keys : List (Key ℚ), keys.Pairwise (fun a b => a.input ≤ b.input) ∧ keys = (keys.map Op.add).foldl run [] ∧
    evaluate true 12 .constant .constant keys 1 = none :=
  ⟨[key 0 0 .linear, key 1 1 .linear, key 1 2 .linear, key 2 3 .linear], by decide +kernel, by decide +kernel, by decide +kernel⟩

/-- C35 fails for TCB segments: the time of the second control point is computed from the value of the key (FCDAnimationCurve.cpp 457), so that adding
1000 to all values of a curve does not add 1000 to the samples. -/
theorem tcb_violated : ∃ (keys : List (Key ℚ)) (x y z : ℚ), Sorted keys ∧ (∀ k ∈ keys, k.interp = .tcb) ∧ evaluate true 12 .constant .constant keys x = some y ∧
    evaluate true 12 .constant .constant (keys.map fun k => { k with output := k.output + 1000 }) x = some z ∧ z ≠ y + 1000 := by
  refine ⟨[key 0 0 .tcb, key 1 1 .tcb], 1 / 4, (evaluate true 12 .constant .constant [key 0 0 .tcb, key 1 1 .tcb] (1 / 4)).get (by decide +kernel),
    (evaluate true 12 .constant .constant ([key 0 0 .tcb, key 1 1 .tcb].map fun k => { k with output := k.output + 1000 }) (1 / 4)).get (by decide +kernel), ?_, ?_, ?_, ?_, ?_⟩
  · rw [Sorted]; decide +kernel
  · decide +kernel
  · decide +kernel
  · decide +kernel
  · decide +kernel

end Verif.Curve
