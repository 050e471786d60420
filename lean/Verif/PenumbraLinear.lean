import Verif.PenumbraLemmas
import Mathlib.Tactic.FieldSimp

/-! # Lemmas on the penumbra of a light: linear curves -/

namespace Verif.Penumbra

open Verif.Curve

variable {K : Type} [Field K] [LinearOrder K] [IsStrictOrderedRing K] [FloorRing K]

/-- A linear curve whose values at its keys are a sum of the values of two linear curves, and which has a key wherever one of them has one, is that sum. -/
theorem sum_of_lines (twoD : Bool) (n : Nat) {keys a b : List (Key K)} (hne : keys ≠ []) (hs : Sorted keys) (hl : ∀ k ∈ keys, k.interp = .linear)
    (ha0 : a ≠ []) (has : Sorted a) (hal : ∀ k ∈ a, k.interp = .linear) (hak : ∀ k ∈ a, ∃ j ∈ keys, j.input = k.input)
    (hb0 : b ≠ []) (hbs : Sorted b) (hbl : ∀ k ∈ b, k.interp = .linear) (hbk : ∀ k ∈ b, ∃ j ∈ keys, j.input = k.input) (w : K)
    (hk : ∀ k ∈ keys, ∃ u v, evaluate twoD n .constant .constant a k.input = some u ∧ evaluate twoD n .constant .constant b k.input = some v ∧ k.output = u + w * v) (x : K) :
    ∃ u v, evaluate twoD n .constant .constant a x = some u ∧ evaluate twoD n .constant .constant b x = some v ∧
      evaluate twoD n .constant .constant keys x = some (u + w * v) := by
  obtain ⟨first, hf⟩ : ∃ f, keys[0]? = some f := by
    cases keys with
    | nil => exact absurd rfl hne
    | cons k ks => exact ⟨k, rfl⟩
  obtain ⟨last, hlast⟩ : ∃ f, keys[keys.length - 1]? = some f := by
    have : keys.length - 1 < keys.length := by
      have := List.length_pos_of_ne_nil hne
      omega
    exact ⟨_, List.getElem?_eq_getElem this⟩
  have hfm := List.mem_of_getElem? hf
  have hlm := List.mem_of_getElem? hlast
  have hfirst : ∀ k ∈ keys, first.input ≤ k.input := by
    intro k hk
    obtain ⟨i, hi⟩ := List.mem_iff_getElem?.1 hk
    rcases Nat.eq_zero_or_pos i with rfl | h0
    · rw [hf] at hi; cases hi; exact le_refl _
    · exact le_of_lt (hs.lt h0 hf hi)
  have hlast' : ∀ k ∈ keys, k.input ≤ last.input := by
    intro k hk
    obtain ⟨i, hi⟩ := List.mem_iff_getElem?.1 hk
    have hlt := (List.getElem?_eq_some_iff.1 hi).1
    rcases Nat.lt_or_ge i (keys.length - 1) with h0 | h0
    · exact le_of_lt (hs.lt h0 hi hlast)
    · have : i = keys.length - 1 := by omega
      rw [this, hlast] at hi; cases hi; exact le_refl _
  have lift : ∀ {l : List (Key K)}, (∀ k ∈ l, ∃ j ∈ keys, j.input = k.input) → ∀ {P : K → Prop}, (∀ j ∈ keys, P j.input) → ∀ k ∈ l, P k.input := by
    intro l h P hP k hk
    obtain ⟨j, hj, e⟩ := h k hk
    rw [← e]
    exact hP j hj
  by_cases h1 : x ≤ first.input
  · obtain ⟨u, v, hu, hv, e⟩ := hk first hfm
    have hP : ∀ j ∈ keys, x ≤ j.input ∧ first.input ≤ j.input := fun j hj => ⟨le_trans h1 (hfirst j hj), hfirst j hj⟩
    refine ⟨u, v, ?_, ?_, ?_⟩
    · rw [constant_outside twoD n has hal (.inl (lift hak (P := fun t => x ≤ t ∧ first.input ≤ t) hP)), hu]
    · rw [constant_outside twoD n hbs hbl (.inl (lift hbk (P := fun t => x ≤ t ∧ first.input ≤ t) hP)), hv]
    · rw [constant_outside twoD n hs hl (.inl hP), linear_at twoD n _ _ hs hl hfm, e]
  · by_cases h2 : last.input ≤ x
    · obtain ⟨u, v, hu, hv, e⟩ := hk last hlm
      have hP : ∀ j ∈ keys, j.input ≤ x ∧ j.input ≤ last.input := fun j hj => ⟨le_trans (hlast' j hj) h2, hlast' j hj⟩
      refine ⟨u, v, ?_, ?_, ?_⟩
      · rw [constant_outside twoD n has hal (.inr (lift hak (P := fun t => t ≤ x ∧ t ≤ last.input) hP)), hu]
      · rw [constant_outside twoD n hbs hbl (.inr (lift hbk (P := fun t => t ≤ x ∧ t ≤ last.input) hP)), hv]
      · rw [constant_outside twoD n hs hl (.inr hP), linear_at twoD n _ _ hs hl hlm, e]
    · obtain ⟨i, s, e, i1, i2, i3, i4⟩ := exists_interval hs hf hlast (not_le.1 h1) (le_of_lt (not_le.1 h2))
      have hsm := List.mem_of_getElem? i1
      have hem := List.mem_of_getElem? i2
      have hse : s.input < e.input := lt_of_lt_of_le i3 i4
      have hno : ∀ k ∈ keys, k.input ≤ s.input ∨ e.input ≤ k.input := by
        intro k hk
        obtain ⟨j, hj⟩ := List.mem_iff_getElem?.1 hk
        rcases Nat.lt_trichotomy j i with h | rfl | h
        · exact .inl (le_of_lt (hs.lt h hj i1))
        · rw [i1] at hj; cases hj; exact .inl (le_refl _)
        · rcases Nat.lt_or_ge (i + 1) j with h' | h'
          · exact .inr (le_of_lt (hs.lt h' i2 hj))
          · have : j = i + 1 := by omega
            rw [this, i2] at hj; cases hj; exact .inr (le_refl _)
      obtain ⟨u1, v1, p1, q1, r1⟩ := hk s hsm
      obtain ⟨u2, v2, p2, q2, r2⟩ := hk e hem
      obtain ⟨u1', u2', p1', p2', pa⟩ := linear_line twoD n ha0 has hal hse (le_of_lt i3) i4 (lift hak (P := fun t => t ≤ s.input ∨ e.input ≤ t) hno)
      obtain ⟨v1', v2', q1', q2', qa⟩ := linear_line twoD n hb0 hbs hbl hse (le_of_lt i3) i4 (lift hbk (P := fun t => t ≤ s.input ∨ e.input ≤ t) hno)
      obtain ⟨w1, w2, r1', r2', ra⟩ := linear_line twoD n hne hs hl hse (le_of_lt i3) i4 hno
      rw [linear_at twoD n _ _ hs hl hsm] at r1'
      rw [linear_at twoD n _ _ hs hl hem] at r2'
      rw [p1] at p1'; rw [p2] at p2'; rw [q1] at q1'; rw [q2] at q2'
      cases p1'; cases p2'; cases q1'; cases q2'; cases r1'; cases r2'
      refine ⟨_, _, pa, qa, ?_⟩
      rw [ra, r1, r2]
      congr 1
      ring

/-! ## The search for a zero -/

omit [FloorRing K] in
/-- Once the values at the ends differ by less than the tolerance, the search is at its end; until then, each round halves the difference. -/
theorem bisect_line {eval : K → Option K} {neg : Bool} {c s : K} (hs : 0 < s) {sg : K} (hsg : sg = if neg then -1 else 1) {A B : K}
    (he : ∀ x, A < x → x < B → eval x = some (sg * (s * (x - c)))) : ∀ (k fuel : Nat) (lower higher : K), k < fuel → A ≤ lower → lower < higher → higher ≤ B →
      lower ≤ c → c ≤ higher → s * (higher - lower) < 1 / 10000 * 2 ^ k →
      ∃ t, bisect eval neg fuel lower higher = some t ∧ A < t ∧ t < B ∧ close (sg * (s * (t - c))) 0 = true := by
  have hcl : ∀ y : K, |y| < 1 / 10000 → close (sg * y) 0 = true := by
    intro y hy
    rw [close_abs, sub_zero, abs_mul]
    have : |sg| = 1 := by rw [hsg]; cases neg <;> simp
    rw [this, one_mul]
    exact hy
  intro k
  induction k with
  | zero =>
    intro fuel lower higher hf hA hlh hB h1 h2 hw
    obtain ⟨fuel, rfl⟩ : ∃ f, fuel = f + 1 := ⟨fuel - 1, by omega⟩
    have hc : close (sg * (s * ((higher + lower) / 2 - c))) 0 = true := by
      apply hcl
      rw [abs_lt]
      constructor <;> nlinarith
    refine ⟨(higher + lower) / 2, ?_, by linarith, by linarith, hc⟩
    rw [bisect, he _ (by linarith) (by linarith), Option.bind_some, if_pos hc]
  | succ k ih =>
    intro fuel lower higher hf hA hlh hB h1 h2 hw
    obtain ⟨fuel, rfl⟩ : ∃ f, fuel = f + 1 := ⟨fuel - 1, by omega⟩
    rw [bisect, he _ (by linarith) (by linarith), Option.bind_some]
    by_cases hc : close (sg * (s * ((higher + lower) / 2 - c))) 0 = true
    · rw [if_pos hc]
      exact ⟨_, rfl, by linarith, by linarith, hc⟩
    · rw [if_neg hc]
      have hd : ((neg && decide (sg * (s * ((higher + lower) / 2 - c)) < 0)) || (!neg && decide (0 < sg * (s * ((higher + lower) / 2 - c))))) = true ↔
          c < (higher + lower) / 2 := by
        have : 0 < s * ((higher + lower) / 2 - c) ↔ c < (higher + lower) / 2 := by rw [mul_pos_iff_of_pos_left hs, sub_pos]
        rw [← this, hsg]
        cases neg <;> simp
      by_cases hlt : c < (higher + lower) / 2
      · rw [if_pos (hd.2 hlt)]
        refine ih fuel lower ((higher + lower) / 2) (by omega) hA (by linarith) (by linarith) h1 (le_of_lt hlt) ?_
        rw [pow_succ] at hw
        nlinarith
      · rw [if_neg (fun h => hlt (hd.1 h))]
        refine ih fuel ((higher + lower) / 2) higher (by omega) (by linarith) (by linarith) hB (not_lt.1 hlt) h2 ?_
        rw [pow_succ] at hw
        nlinarith

/-- The search ends for a value that goes in a line from one sign to the other. -/
theorem bisect_ends {eval : K → Option K} {a b u v : K} (hab : a < b) (hu : u ≠ 0) {neg : Bool} (hv : if neg then 0 < u ∧ v < 0 else u < 0 ∧ 0 < v)
    (he : ∀ x, a < x → x < b → eval x = some (u + (x - a) / (b - a) * (v - u))) :
    ∃ N, ∀ fuel ≥ N, ∃ t, bisect eval neg fuel a b = some t ∧ a < t ∧ t < b := by
  obtain ⟨sg, hsg⟩ : ∃ sg : K, sg = if neg then -1 else 1 := ⟨_, rfl⟩
  have hba : 0 < b - a := by linarith
  have hsg2 : sg * sg = 1 := by rw [hsg]; cases neg <;> simp
  have hd : 0 < sg * (v - u) ∧ sg * u < 0 ∧ 0 < sg * v := by
    rw [hsg]
    cases neg <;> simp at hv ⊢ <;> exact ⟨by linarith, by linarith, by linarith⟩
  have hvu : v - u ≠ 0 := fun h => by rw [h] at hd; simp at hd
  have hs : 0 < sg * (v - u) / (b - a) := div_pos hd.1 hba
  obtain ⟨k, hk⟩ := pow_unbounded_of_one_lt (sg * (v - u) / (b - a) * (b - a) * 10000) (one_lt_two : (1 : K) < 2)
  have hc : ∀ x, u + (x - a) / (b - a) * (v - u) = sg * (sg * (v - u) / (b - a) * (x - (a - u * (b - a) / (v - u)))) := by
    intro x
    have h1 : b - a ≠ 0 := ne_of_gt hba
    have : sg * (sg * (v - u) / (b - a) * (x - (a - u * (b - a) / (v - u)))) = sg * sg * ((v - u) / (b - a) * (x - (a - u * (b - a) / (v - u)))) := by ring
    rw [this, hsg2]
    field_simp
    ring
  have hroot : -(u * (b - a) / (v - u)) = (-(sg * u)) * (b - a) / (sg * (v - u)) := by
    have : sg ≠ 0 := fun h => by rw [h] at hsg2; simp at hsg2
    field_simp
  refine ⟨k + 1, fun fuel hf => ?_⟩
  have h4 : a ≤ a - u * (b - a) / (v - u) := by
    rw [sub_eq_add_neg, hroot]
    have : 0 ≤ (-(sg * u)) * (b - a) / (sg * (v - u)) := div_nonneg (mul_nonneg (by linarith [hd.2.1]) (le_of_lt hba)) (le_of_lt hd.1)
    linarith
  have h5 : a - u * (b - a) / (v - u) ≤ b := by
    rw [sub_eq_add_neg, hroot]
    have : (-(sg * u)) * (b - a) / (sg * (v - u)) ≤ b - a := by
      rw [div_le_iff₀ hd.1]
      nlinarith [hd.2.2]
    linarith
  have h6 : sg * (v - u) / (b - a) * (b - a) < 1 / 10000 * 2 ^ k := by
    rw [mul_comm (1 / 10000 : K), mul_one_div, lt_div_iff₀ (by norm_num)]
    linarith
  obtain ⟨t, h1, h2, h3, _⟩ := bisect_line (eval := eval) (neg := neg) (c := a - u * (b - a) / (v - u)) hs hsg (A := a) (B := b)
    (fun x hx hxb => by rw [he x hx hxb, hc]) k fuel a b hf (le_refl _) hab (le_refl _) h4 h5 h6
  exact ⟨t, h1, h2, h3⟩

/-- Two neighbouring keys of the merged curve, with a line for the penumbra between them. -/
def Line (eval : K → Option K) (s e : MKey K) : Prop :=
  s.input < e.input ∧ ∃ u v, penumbraAt s = some u ∧ penumbraAt e = some v ∧
    ∀ x, s.input < x → x < e.input → eval x = some (u + (x - s.input) / (e.input - s.input) * (v - u))

omit [Field K] [FloorRing K] [IsStrictOrderedRing K] in
theorem addKey_sorted {outer : List (Key K)} (hs : Sorted outer) {z : Key K} (hz : ∀ k ∈ outer, k.input ≠ z.input) : Sorted (addKey outer z).1 := by
  obtain ⟨a, b, e1, e2, e3, e4, _⟩ := add_key (hs.imp (fun h => le_of_lt h)) z
  rw [e2]
  subst e1
  have := List.pairwise_append.1 hs
  refine List.pairwise_append.2 ⟨this.1, List.pairwise_cons.2 ⟨e4, this.2.1⟩, ?_⟩
  intro x hx y hy
  rcases List.mem_cons.1 hy with rfl | hy
  · exact lt_of_le_of_ne (e3 x hx) (hz x (by simp [hx]))
  · exact this.2.2 x hx y hy

omit [Field K] [FloorRing K] [IsStrictOrderedRing K] in
theorem mem_addKey {outer : List (Key K)} {z k : Key K} (h : k ∈ (addKey outer z).1) : k = z ∨ k ∈ outer := by
  rw [addKey] at h
  exact List.eq_or_mem_of_mem_insertIdx h

theorem flipLoop_ends {eval : K → Option K} : ∀ (rest : List (MKey K)) (prev : MKey K) (y : K), penumbraAt prev = some y → (prev :: rest).IsChain (Line eval) →
    (∀ k ∈ prev :: rest, k.interp = .linear) →
    ∃ N, ∀ fuel ≥ N, ∀ outer : List (Key K), Sorted outer → (∀ k ∈ outer, k.interp = .linear) → (∀ k ∈ outer, k.input ≤ prev.input ∨ ∃ r ∈ rest, r.input = k.input) →
      ∃ r, flipLoop eval fuel prev (decide (y < 0)) (close y 0) rest outer = some r ∧ Sorted r.1 ∧ ∀ k ∈ r.1, k.interp = .linear := by
  have hzero : ∀ y : K, close y 0 ≠ true → y ≠ 0 := by
    rintro y h rfl
    exact h (close_self 0)
  have flips : ∀ (prev key : MKey K) (y y' : K), Line eval prev key → penumbraAt prev = some y → penumbraAt key = some y' → close y 0 ≠ true → close y' 0 ≠ true →
      ((decide (y < 0) && decide (0 < y')) || (!decide (y < 0) && decide (y' < 0))) = true →
      decide (y' < 0) = !decide (y < 0) ∧ ∃ N, ∀ fuel ≥ N, ∃ t, bisect eval (!decide (y < 0)) fuel prev.input key.input = some t ∧ prev.input < t ∧ t < key.input := by
    rintro prev key y y' ⟨hlt, u, v, e1, e2, hx⟩ hy hy' h1 h2 hf
    rw [hy] at e1; rw [hy'] at e2
    cases e1; cases e2
    have hy0 := hzero y h1
    by_cases hneg : y < 0
    · have hpos : 0 < y' := by simpa [hneg] using hf
      refine ⟨by simp [hneg, le_of_lt hpos], bisect_ends hlt hy0 (by simp [hneg, hpos]) hx⟩
    · have hpos : y' < 0 := by simpa [hneg] using hf
      refine ⟨by simp [hneg, hpos], bisect_ends hlt hy0 ?_ hx⟩
      simp [hneg, hpos]
      exact lt_of_le_of_ne (not_lt.1 hneg) (Ne.symm hy0)
  have same : ∀ (y y' : K), close y' 0 ≠ true → ¬((decide (y < 0) && decide (0 < y')) || (!decide (y < 0) && decide (y' < 0))) = true → decide (y' < 0) = decide (y < 0) := by
    intro y y' h hf
    have := hzero y' h
    by_cases hneg : y < 0
    · have : y' < 0 := lt_of_le_of_ne (by simpa [hneg] using hf) this
      simp [hneg, this]
    · have : ¬y' < 0 := by simpa [hneg] using hf
      simp [hneg, this]
  have zk : ∀ (prev key : MKey K) (t : K), prev.interp = .linear → key.interp = .linear → zeroKey eval prev key t = some ⟨t, 0, .linear, (0, 0), (0, 0), 0, 0, 0⟩ := by
    intro prev key t h1 h2
    simp [zeroKey, h1, h2]
  intro rest
  induction rest using List.twoStepInduction with
  | nil => intro prev y _ _ _; exact ⟨0, fun fuel _ outer hs hl _ => ⟨_, rfl, hs, hl⟩⟩
  | singleton key =>
    intro prev y hy hc hl
    have hline : Line eval prev key := by simpa using hc
    obtain ⟨_, _, y', _, hy', _⟩ := hline
    by_cases h1 : close y' 0 = true
    · exact ⟨0, fun fuel _ outer hs hol _ => ⟨_, by rw [flipLoop, hy', Option.bind_some, if_pos h1], hs, hol⟩⟩
    by_cases h2 : close y 0 = true
    · exact ⟨0, fun fuel _ outer hs hol _ => ⟨_, by rw [flipLoop, hy', Option.bind_some, if_neg h1, if_pos h2], hs, hol⟩⟩
    by_cases h3 : ((decide (y < 0) && decide (0 < y')) || (!decide (y < 0) && decide (y' < 0))) = true
    · obtain ⟨-, N, hN⟩ := flips prev key y y' (by simpa using hc) hy hy' h2 h1 h3
      refine ⟨N, fun fuel hf outer hs hol hin => ?_⟩
      obtain ⟨t, t1, t2, t3⟩ := hN fuel hf
      refine ⟨_, by rw [flipLoop, hy', Option.bind_some, if_neg h1, if_neg h2, if_pos h3, t1, Option.bind_some, zk prev key t (hl _ (by simp)) (hl _ (by simp)), Option.map_some], ?_, ?_⟩
      · refine addKey_sorted hs ?_
        intro k hk e
        simp only at e
        rcases hin k hk with h | ⟨r, hr, h⟩
        · exact absurd t2 (by rw [← e]; exact not_lt.2 h)
        · obtain rfl : r = key := by simpa using hr
          exact absurd t3 (by rw [← e, h]; exact lt_irrefl _)
      · intro k hk
        rcases mem_addKey hk with rfl | hk
        · rfl
        · exact hol k hk
    · exact ⟨0, fun fuel _ outer hs hol _ => ⟨_, by rw [flipLoop, hy', Option.bind_some, if_neg h1, if_neg h2, if_neg h3], hs, hol⟩⟩
  | cons_cons key next rest ih1 ih2 =>
    intro prev y hy hc hl
    have hc' := List.isChain_cons_cons.1 hc
    have hline := hc'.1
    obtain ⟨hlt, _, y', _, hy', _⟩ := hline
    have hline2 := (List.isChain_cons_cons.1 hc'.2).1
    obtain ⟨hlt2, _, y'', _, hy'', _⟩ := hline2
    obtain ⟨N2, hN2⟩ := ih2 next key y' hy' hc'.2 (fun k hk => hl k (List.mem_cons_of_mem _ hk))
    have hin2 : ∀ {outer : List (Key K)}, (∀ k ∈ outer, k.input ≤ prev.input ∨ ∃ r ∈ key :: next :: rest, r.input = k.input) →
        ∀ k ∈ outer, k.input ≤ key.input ∨ ∃ r ∈ next :: rest, r.input = k.input := by
      intro outer hin k hk
      rcases hin k hk with h | ⟨r, hr, h⟩
      · exact .inl (le_trans h (le_of_lt hlt))
      · rcases List.mem_cons.1 hr with rfl | hr
        · exact .inl (le_of_eq h.symm)
        · exact .inr ⟨r, hr, h⟩
    by_cases h1 : close y' 0 = true
    · obtain ⟨N, hN⟩ := ih1 next y'' hy'' (List.isChain_cons_cons.1 hc'.2).2 (fun k hk => hl k (by simp only [List.mem_cons] at hk ⊢; tauto))
      refine ⟨N, fun fuel hf outer hs hol hin => ?_⟩
      rw [flipLoop, hy', Option.bind_some, if_pos h1, hy'', Option.bind_some]
      refine hN fuel hf outer hs hol (fun k hk => ?_)
      rcases hin2 hin k hk with h | ⟨r, hr, h⟩
      · exact .inl (le_trans h (le_of_lt hlt2))
      · rcases List.mem_cons.1 hr with rfl | hr
        · exact .inl (le_of_eq h.symm)
        · exact .inr ⟨r, hr, h⟩
    by_cases h2 : close y 0 = true
    · refine ⟨N2, fun fuel hf outer hs hol hin => ?_⟩
      rw [flipLoop, hy', Option.bind_some, if_neg h1, if_pos h2]
      have := hN2 fuel hf outer hs hol (hin2 hin)
      rwa [Bool.eq_false_iff.2 h1] at this
    by_cases h3 : ((decide (y < 0) && decide (0 < y')) || (!decide (y < 0) && decide (y' < 0))) = true
    · obtain ⟨hsg, N, hN⟩ := flips prev key y y' hc'.1 hy hy' h2 h1 h3
      refine ⟨max N N2, fun fuel hf outer hs hol hin => ?_⟩
      obtain ⟨t, t1, t2, t3⟩ := hN fuel (le_trans (le_max_left _ _) hf)
      have hout : Sorted (addKey outer ⟨t, 0, .linear, (0, 0), (0, 0), 0, 0, 0⟩).1 := by
        refine addKey_sorted hs ?_
        intro k hk e
        simp only at e
        rcases hin k hk with h | ⟨r, hr, h⟩
        · exact absurd t2 (by rw [← e]; exact not_lt.2 h)
        · rcases List.mem_cons.1 hr with rfl | hr
          · exact absurd t3 (by rw [← e, h]; exact lt_irrefl _)
          · have : key.input < r.input := by
              have hp : (key :: next :: rest).Pairwise fun a b => a.input < b.input :=
                List.isChain_iff_pairwise.1 (hc'.2.imp fun _ _ h => h.1)
              exact (List.pairwise_cons.1 hp).1 r hr
            rw [h, e] at this
            exact absurd t3 (not_lt.2 (le_of_lt this))
      obtain ⟨r, r1, r2, r3⟩ := hN2 fuel (le_trans (le_max_right _ _) hf) _ hout
        (fun k hk => by
          rcases mem_addKey hk with rfl | hk
          · rfl
          · exact hol k hk)
        (fun k hk => by
          rcases mem_addKey hk with rfl | hk
          · exact .inl (le_of_lt t3)
          · exact hin2 hin k hk)
      rw [flipLoop, hy', Option.bind_some, if_neg h1, if_neg h2, if_pos h3, t1, Option.bind_some, zk prev key t (hl _ (by simp)) (hl _ (by simp)), Option.bind_some]
      rw [hsg, Bool.eq_false_iff.2 h1] at r1
      rw [r1, Option.map_some]
      exact ⟨_, rfl, r2, r3⟩
    · refine ⟨N2, fun fuel hf outer hs hol hin => ?_⟩
      rw [flipLoop, hy', Option.bind_some, if_neg h1, if_neg h2, if_neg h3]
      have := hN2 fuel hf outer hs hol (hin2 hin)
      rwa [same y y' h1 h3, Bool.eq_false_iff.2 h1] at this

end Verif.Penumbra
