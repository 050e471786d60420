import Verif.Curve
import Mathlib.Algebra.Order.Floor.Ring
import Mathlib.Tactic.Linarith
import Mathlib.Tactic.Ring
import Mathlib.Tactic.FieldSimp
import Mathlib.Tactic.NormNum
import Mathlib.Tactic.Positivity

/-! # Animation curves: lemmas -/

namespace Verif.Curve

variable {K : Type} [Field K] [LinearOrder K]

/-- Keys in strictly increasing order of time. -/
def Sorted (keys : List (Key K)) : Prop := keys.Pairwise fun a b => a.input < b.input

omit [Field K] in
theorem Sorted.lt {keys : List (Key K)} (h : Sorted keys) {i j : Nat} {a b : Key K} (hij : i < j) (ha : keys[i]? = some a) (hb : keys[j]? = some b) : a.input < b.input := by
  obtain ⟨hi, rfl⟩ := List.getElem?_eq_some_iff.mp ha
  obtain ⟨hj, rfl⟩ := List.getElem?_eq_some_iff.mp hb
  exact List.pairwise_iff_getElem.mp h i j hi hj hij

omit [Field K] in
theorem binLoop_ok {keys : List (Key K)} {x : K} : ∀ (n s t : Nat), s < t → t ≤ keys.length → t - s ≤ n + 3 → (s = 0 ∨ ∃ k, keys[s]? = some k ∧ k.input ≤ x) →
    (t = keys.length ∨ ∃ k, keys[t]? = some k ∧ x < k.input) →
    ∃ s' t', binLoop keys x (n + 1) s t = some (s', t') ∧ s' < t' ∧ t' ≤ keys.length ∧ t' - s' ≤ 3 ∧ (s' = 0 ∨ ∃ k, keys[s']? = some k ∧ k.input ≤ x) ∧
      (t' = keys.length ∨ ∃ k, keys[t']? = some k ∧ x < k.input) := by
  intro n
  induction n with
  | zero =>
    intro s t h1 h2 h3 h4 h5
    refine ⟨s, t, ?_, h1, h2, by omega, h4, h5⟩
    rw [binLoop, if_neg (by omega)]
  | succ n ih =>
    intro s t h1 h2 h3 h4 h5
    rw [binLoop]
    by_cases hc : t - s > 3
    · have hm : (s + t) / 2 < keys.length := by omega
      rw [if_pos hc, List.getElem?_eq_getElem hm, Option.bind_some]
      by_cases hk : keys[(s + t) / 2].input > x
      · rw [if_pos hk]
        exact ih s _ (by omega) (by omega) (by omega) h4 (Or.inr ⟨_, List.getElem?_eq_getElem hm, hk⟩)
      · rw [if_neg hk]
        exact ih _ t (by omega) (by omega) (by omega) (Or.inr ⟨_, List.getElem?_eq_getElem hm, not_lt.mp hk⟩) h5
    · rw [if_neg hc]
      exact ⟨s, t, rfl, h1, h2, by omega, h4, h5⟩

omit [Field K] in
theorem linLoop_ok {keys : List (Key K)} {x : K} : ∀ (n it : Nat), it + n ≤ keys.length → ∃ r, linLoop keys x n it = some r ∧ it ≤ r ∧ r ≤ it + n ∧
    (∀ j k, it ≤ j → j < r → keys[j]? = some k → k.input < x) ∧ (r < it + n → ∃ k, keys[r]? = some k ∧ x ≤ k.input) := by
  intro n
  induction n with
  | zero =>
    intro it h
    exact ⟨it, rfl, by omega, by omega, by intro j k h1 h2; omega, by omega⟩
  | succ n ih =>
    intro it h
    have hlt : it < keys.length := by omega
    rw [linLoop, List.getElem?_eq_getElem hlt, Option.bind_some]
    by_cases hk : keys[it].input ≥ x
    · rw [if_pos hk]
      exact ⟨it, rfl, by omega, by omega, by intro j k h1 h2; omega, fun _ => ⟨_, List.getElem?_eq_getElem hlt, hk⟩⟩
    · rw [if_neg hk]
      obtain ⟨r, r1, r2, r3, r4, r5⟩ := ih (it + 1) (by omega)
      refine ⟨r, r1, by omega, by omega, ?_, fun h => r5 (by omega)⟩
      intro j k h1 h2 hjk
      by_cases hj : j = it
      · subst hj
        rw [List.getElem?_eq_getElem hlt] at hjk
        cases hjk
        exact not_le.mp hk
      · exact r4 j k (by omega) h2 hjk

omit [Field K] in
theorem search_ok {keys : List (Key K)} {x : K} (hs : Sorted keys) (hne : keys ≠ []) (hlast : ∀ k, keys[keys.length - 1]? = some k → x ≤ k.input) :
    ∃ it k, search keys x = some it ∧ keys[it]? = some k ∧ x ≤ k.input ∧ ∀ j k', j < it → keys[j]? = some k' → k'.input < x := by
  have hpos : 0 < keys.length := List.length_pos_iff.mpr hne
  obtain ⟨s, t, e1, e2, e3, e4, e5, e6⟩ := binLoop_ok (keys := keys) (x := x) keys.length 0 keys.length hpos (le_refl _) (by omega) (Or.inl rfl) (Or.inl rfl)
  obtain ⟨r, r1, r2, r3, r4, r5⟩ := linLoop_ok (keys := keys) (x := x) (t - s) s (by omega)
  have hr : ∃ k, keys[r]? = some k ∧ x ≤ k.input := by
    by_cases hlt : r < s + (t - s)
    · exact r5 hlt
    · have hrt : r = t := by omega
      rcases e6 with e6 | ⟨k, k1, k2⟩
      · have hl : keys.length - 1 < keys.length := by omega
        have h1 := hlast _ (List.getElem?_eq_getElem hl)
        have h2 := r4 (keys.length - 1) _ (by omega) (by omega) (List.getElem?_eq_getElem hl)
        exact absurd h2 (not_lt.mpr h1)
      · exact ⟨k, by rw [hrt]; exact k1, le_of_lt k2⟩
  obtain ⟨k, k1, k2⟩ := hr
  refine ⟨r, k, ?_, k1, k2, ?_⟩
  · rw [search, e1, Option.bind_some]; exact r1
  · intro j k' hj hk'
    by_cases hjs : s ≤ j
    · exact r4 j k' hjs hj hk'
    · rcases e5 with e5 | ⟨ks, s1, s2⟩
      · omega
      · exact lt_of_lt_of_le (hs.lt (by omega) hk' s1) s2

theorem inside_first (twoD : Bool) (n : Nat) {keys : List (Key K)} {x : K} {first : Key K} (hs : Sorted keys) (h0 : keys[0]? = some first) (hx : x ≤ first.input) :
    inside twoD n keys first x = some first.output := by
  have hne : keys ≠ [] := by intro e; rw [e] at h0; simp at h0
  obtain ⟨it, k, e1, e2, e3, e4⟩ := search_ok (x := x) hs hne (by
    intro k hk
    by_cases hl : keys.length - 1 = 0
    · rw [hl, h0] at hk; cases hk; exact hx
    · exact le_trans hx (le_of_lt (hs.lt (by omega) h0 hk)))
  have hit : it = 0 := by
    by_contra hn
    exact absurd (e4 0 first (by omega) h0) (not_lt.mpr hx)
  rw [inside, e1, Option.bind_some, if_pos hit]

theorem inside_at (twoD : Bool) (n : Nat) {keys : List (Key K)} {x : K} {first s e : Key K} {i : Nat} (hs : Sorted keys) (h1 : keys[i]? = some s) (h2 : keys[i + 1]? = some e)
    (hx1 : s.input < x) (hx2 : x ≤ e.input) :
    inside twoD n keys first x = segment twoD n first.input (if i = 0 then none else keys[i - 1]?) s e keys[i + 2]? x := by
  have hne : keys ≠ [] := by intro e; rw [e] at h1; simp at h1
  have hlen : i + 1 < keys.length := (List.getElem?_eq_some_iff.mp h2).1
  obtain ⟨it, k, e1, e2, e3, e4⟩ := search_ok (x := x) hs hne (by
    intro k hk
    by_cases hl : keys.length - 1 = i + 1
    · rw [hl, h2] at hk; cases hk; exact hx2
    · exact le_trans hx2 (le_of_lt (hs.lt (by omega) h2 hk)))
  have hit : it = i + 1 := by
    rcases Nat.lt_trichotomy it (i + 1) with h | h | h
    · have : k.input ≤ s.input := by
        by_cases hi : it = i
        · subst hi; rw [h1] at e2; cases e2; exact le_refl _
        · exact le_of_lt (hs.lt (by omega) e2 h1)
      exact absurd (lt_of_lt_of_le hx1 (le_trans e3 this)) (lt_irrefl _)
    · exact h
    · exact absurd (e4 (i + 1) e h h2) (not_lt.mpr hx2)
  subst hit
  rw [inside, e1, Option.bind_some, if_neg (by omega)]
  simp only [Nat.add_sub_cancel, h1, h2, Option.bind_some]
  rfl

omit [Field K] in
/-- Between the first and the last key there is an interval for every time. -/
theorem exists_interval {keys : List (Key K)} {x : K} {first last : Key K} (hs : Sorted keys) (h0 : keys[0]? = some first) (hl : keys[keys.length - 1]? = some last)
    (hx1 : first.input < x) (hx2 : x ≤ last.input) : ∃ i s e, keys[i]? = some s ∧ keys[i + 1]? = some e ∧ s.input < x ∧ x ≤ e.input := by
  have hne : keys ≠ [] := by intro e; rw [e] at h0; simp at h0
  obtain ⟨it, k, e1, e2, e3, e4⟩ := search_ok (x := x) hs hne (by intro k hk; rw [hl] at hk; cases hk; exact hx2)
  cases it with
  | zero => rw [h0] at e2; cases e2; exact absurd (lt_of_lt_of_le hx1 e3) (lt_irrefl _)
  | succ i =>
    have hi : i < keys.length := by have := (List.getElem?_eq_some_iff.mp e2).1; omega
    exact ⟨i, keys[i], k, List.getElem?_eq_getElem hi, e2, e4 i _ (by omega) (List.getElem?_eq_getElem hi), e3⟩

/-- The parts of a curve with two keys or more. -/
structure Ends (keys : List (Key K)) (first second beforeLast last : Key K) : Prop where
  first : keys[0]? = some first
  second : keys[1]? = some second
  beforeLast : keys[keys.length - 2]? = some beforeLast
  last : keys[keys.length - 1]? = some last

omit [Field K] [LinearOrder K] in
theorem exists_ends {keys : List (Key K)} (h : 2 ≤ keys.length) : ∃ a b c d, Ends keys a b c d :=
  ⟨keys[0], keys[1], keys[keys.length - 2], keys[keys.length - 1], List.getElem?_eq_getElem (by omega), List.getElem?_eq_getElem (by omega),
    List.getElem?_eq_getElem (by omega), List.getElem?_eq_getElem (by omega)⟩

omit [Field K] [LinearOrder K] in
theorem Ends.len {keys : List (Key K)} {a b c d : Key K} (h : Ends keys a b c d) : 2 ≤ keys.length := (List.getElem?_eq_some_iff.mp h.second).1

theorem evaluate_ends [FloorRing K] {keys : List (Key K)} {a b c d : Key K} (h : Ends keys a b c d) (twoD : Bool) (n : Nat) (pre post : Infin) (x : K) :
    evaluate twoD n pre post keys x = if x < a.input then evalBefore twoD n keys pre a b d x else if x ≥ d.input then evalAfter twoD n keys post a c d x else inside twoD n keys a x := by
  rcases keys with _ | ⟨f, _ | ⟨s, rest⟩⟩
  · have := h.len; simp at this
  · have := h.len; simp at this
  · have h1 : f = a := by simpa using h.first
    have h2 : s = b := by simpa using h.second
    have h3 : (s :: rest).getLast (by simp) = d := by
      have := h.last
      simp only [List.length_cons, Nat.add_sub_cancel] at this
      rw [List.getElem?_cons_succ] at this
      rw [List.getLast_eq_getElem]
      obtain ⟨hh, e⟩ := List.getElem?_eq_some_iff.mp this
      simpa using e
    have h4 : (f :: s :: rest).dropLast.getLast (by simp) = c := by
      have := h.beforeLast
      simp only [List.length_cons] at this
      rw [List.getLast_eq_getElem]
      obtain ⟨hh, e⟩ := List.getElem?_eq_some_iff.mp this
      rw [List.getElem_dropLast]
      simpa using e
    subst h1
    subst h2
    rw [evaluate]
    simp only [h3, h4]

/-! ## FindT -/

variable [IsStrictOrderedRing K]

/-- What `FindT` gives: a parameter whose time is close to the wanted one, or that lies in a small interval at whose ends the time is below and above
the wanted one. -/
def Found (p0 p1 p2 p3 x t : K) : Prop :=
  0 < t ∧ t < 1 ∧ (|bezierX p0 p1 p2 p3 t - x| ≤ 1 / 1000 ∨
    ∃ lo hi, lo ≤ t ∧ t ≤ hi ∧ hi - lo ≤ 1 / 1000 ∧ (lo = 0 ∨ bezierX p0 p1 p2 p3 lo ≤ x) ∧ (hi = 1 ∨ x < bezierX p0 p1 p2 p3 hi))

omit [IsStrictOrderedRing K] in
theorem findTLoop_mono {p0 p1 p2 p3 x : K} : ∀ {n m : Nat} {b : Bool} {lo hi mid t : K}, n ≤ m → findTLoop p0 p1 p2 p3 x n b lo hi mid = some t →
    findTLoop p0 p1 p2 p3 x m b lo hi mid = some t := by
  intro n
  induction n with
  | zero => intro m b lo hi mid t _ h; simp [findTLoop] at h
  | succ n ih =>
    intro m b lo hi mid t hm h
    obtain ⟨m, rfl⟩ : ∃ m', m = m' + 1 := ⟨m - 1, by omega⟩
    rw [findTLoop] at h ⊢
    split at h
    · rename_i h1
      rw [if_pos h1]
      simp only [] at h ⊢
      generalize (if b = true then mid else (hi - lo) / 2 + lo) = mid' at h ⊢
      split at h
      · rename_i h2; rw [if_pos h2]; exact h
      · rename_i h2
        rw [if_neg h2]
        split at h
        · rename_i h3; rw [if_pos h3]; exact ih (by omega) h
        · rename_i h3; rw [if_neg h3]; exact ih (by omega) h
    · rename_i h1; rw [if_neg h1]; exact h

theorem findTLoop_ok {p0 p1 p2 p3 x : K} : ∀ (n : Nat) (lo hi mid : K), 0 ≤ lo → lo < hi → hi ≤ 1 → (mid = lo ∨ mid = hi) → 0 < mid → mid < 1 →
    hi - lo ≤ 2 ^ n / 1000 → (lo = 0 ∨ bezierX p0 p1 p2 p3 lo ≤ x) → (hi = 1 ∨ x < bezierX p0 p1 p2 p3 hi) →
    ∃ t, findTLoop p0 p1 p2 p3 x (n + 1) false lo hi mid = some t ∧ Found p0 p1 p2 p3 x t := by
  intro n
  induction n with
  | zero =>
    intro lo hi mid h0 hlt h1 hm hm0 hm1 hw hl hh
    have hw' : hi - lo ≤ 1 / 1000 := by simpa using hw
    refine ⟨mid, by rw [findTLoop, if_neg (not_lt.mpr hw')], hm0, hm1, Or.inr ⟨lo, hi, ?_, ?_, hw', hl, hh⟩⟩
    · rcases hm with rfl | rfl <;> linarith
    · rcases hm with rfl | rfl <;> linarith
  | succ n ih =>
    intro lo hi mid h0 hlt h1 hm hm0 hm1 hw hl hh
    rw [findTLoop]
    by_cases hc : hi - lo > 1 / 1000
    · rw [if_pos hc]
      have a1 : lo < (hi - lo) / 2 + lo := by linarith
      have a2 : (hi - lo) / 2 + lo < hi := by linarith
      have a3 : hi - ((hi - lo) / 2 + lo) ≤ 2 ^ n / 1000 := by rw [pow_succ] at hw; linarith
      have a4 : (hi - lo) / 2 + lo - lo ≤ 2 ^ n / 1000 := by rw [pow_succ] at hw; linarith
      simp only [Bool.false_eq_true, if_false]
      by_cases hb : |bezierX p0 p1 p2 p3 ((hi - lo) / 2 + lo) - x| ≤ 1 / 1000
      · rw [if_pos hb]
        exact ⟨_, rfl, by linarith, by linarith, Or.inl hb⟩
      · rw [if_neg hb]
        by_cases hg : bezierX p0 p1 p2 p3 ((hi - lo) / 2 + lo) > x
        · rw [if_pos hg]
          exact ih lo _ _ h0 a1 (by linarith) (Or.inr rfl) (by linarith) (by linarith) a4 hl (Or.inr hg)
        · rw [if_neg hg]
          exact ih _ hi _ (by linarith) a2 h1 (Or.inl rfl) (by linarith) (by linarith) a3 (Or.inr (not_lt.mp hg)) hh
    · rw [if_neg hc]
      refine ⟨mid, rfl, hm0, hm1, Or.inr ⟨lo, hi, ?_, ?_, not_lt.mp hc, hl, hh⟩⟩
      · rcases hm with rfl | rfl <;> linarith
      · rcases hm with rfl | rfl <;> linarith

theorem findT_ok {p0 p1 p2 p3 x : K} (g : K) {n : Nat} (hn : 12 ≤ n) : ∃ t, findT n p0 p1 p2 p3 x g = some t ∧ Found p0 p1 p2 p3 x t := by
  have hmid : ∀ mid : K, 1 / 10 ≤ mid → mid ≤ 9 / 10 → ∃ t, findTLoop p0 p1 p2 p3 x n true 0 1 mid = some t ∧ Found p0 p1 p2 p3 x t := by
    intro mid m1 m2
    have key : ∃ t, findTLoop p0 p1 p2 p3 x (11 + 1) true 0 1 mid = some t ∧ Found p0 p1 p2 p3 x t := by
      rw [findTLoop, if_pos (by norm_num)]
      simp only [if_true]
      by_cases hb : |bezierX p0 p1 p2 p3 mid - x| ≤ 1 / 1000
      · rw [if_pos hb]
        exact ⟨mid, rfl, by linarith, by linarith, Or.inl hb⟩
      · rw [if_neg hb]
        by_cases hg : bezierX p0 p1 p2 p3 mid > x
        · rw [if_pos hg]
          exact findTLoop_ok 10 0 mid mid (le_refl _) (by linarith) (by linarith) (Or.inr rfl) (by linarith) (by linarith) (by norm_num; linarith) (Or.inl rfl) (Or.inr hg)
        · rw [if_neg hg]
          exact findTLoop_ok 10 mid 1 mid (by linarith) (by linarith) (le_refl _) (Or.inl rfl) (by linarith) (by linarith) (by norm_num; linarith) (Or.inr (not_lt.mp hg)) (Or.inl rfl)
    obtain ⟨t, h1, h2⟩ := key
    exact ⟨t, findTLoop_mono hn h1, h2⟩
  rw [findT]
  apply hmid
  · split
    · exact le_refl _
    · split
      · norm_num
      · rename_i h _; exact le_of_lt (not_le.mp h)
  · split
    · norm_num
    · split
      · exact le_refl _
      · rename_i _ h; exact le_of_lt (not_le.mp h)

end Verif.Curve
