import Verif.StrSearchSpec
import Verif.StrSearch
import Mathlib.Data.List.Infix

/-! # Lemmas for the properties in StrSearchProps -/

namespace Verif.FStr

theorem scanFirst_first (test : Nat → Bool) (P : Nat → Prop) (i fence : Nat) (ht : ∀ k, k < fence → (test k = true ↔ P k))
    (hf : ∀ k, fence ≤ k → ¬ P k) : First P i (scanFirst test i fence) := by
  fun_induction scanFirst test i fence with
  | case1 i h t => exact .inl ⟨Nat.le_refl _, (ht i h).1 t, fun k h1 h2 => by omega⟩
  | case2 i h t ih =>
    have hi : ¬ P i := fun hp => t ((ht i h).2 hp)
    rcases ih with ⟨h1, h2, h3⟩ | ⟨h1, h2⟩
    · refine .inl ⟨by omega, h2, fun k hk1 hk2 => ?_⟩
      by_cases hk : k = i
      · subst hk; exact hi
      · exact h3 k (by omega) hk2
    · refine .inr ⟨h1, fun k hk1 => ?_⟩
      by_cases hk : k = i
      · subst hk; exact hi
      · exact h2 k (by omega)
  | case3 i h => exact .inr ⟨rfl, fun k hk => hf k (by omega)⟩

theorem scanLast_last (test : Nat → Bool) (P : Nat → Prop) (off : Nat) (i fence ret : Nat) (ht : ∀ k, k < fence → (test k = true ↔ P k))
    (hf : ∀ k, fence ≤ k → ¬ P k) (hi : off ≤ i)
    (hr : (off ≤ ret ∧ P ret ∧ ∀ k, ret < k → k < i → ¬ P k) ∨ (ret = npos ∧ ∀ k, off ≤ k → k < i → ¬ P k)) :
    Last P off (scanLast test i fence ret) := by
  fun_induction scanLast test i fence ret with
  | case1 i ret h ih =>
    apply ih (by omega)
    by_cases t : test i = true
    · simp only [t, ↓reduceDIte]
      exact .inl ⟨hi, (ht i h).1 t, fun k h1 h2 => by omega⟩
    · simp only [t, Bool.false_eq_true, ↓reduceDIte]
      have hp : ¬ P i := fun hp => t ((ht i h).2 hp)
      rcases hr with ⟨h1, h2, h3⟩ | ⟨h1, h2⟩
      · refine .inl ⟨h1, h2, fun k hk1 hk2 => ?_⟩
        by_cases hk : k = i
        · subst hk; exact hp
        · exact h3 k hk1 (by omega)
      · refine .inr ⟨h1, fun k hk1 hk2 => ?_⟩
        by_cases hk : k = i
        · subst hk; exact hp
        · exact h2 k hk1 (by omega)
  | case2 i ret h =>
    rcases hr with ⟨h1, h2, h3⟩ | ⟨h1, h2⟩
    · refine .inl ⟨h1, h2, fun k hk => ?_⟩
      by_cases hk2 : k < i
      · exact h3 k hk hk2
      · exact hf k (by omega)
    · refine .inr ⟨h1, fun k hk => ?_⟩
      by_cases hk2 : k < i
      · exact h2 k hk hk2
      · exact hf k (by omega)

theorem IsBuf.char {buf xs : List Ch} (h : IsBuf buf xs) (c : Ch) (hc : c ≠ 0) (i : Nat) : charAt buf c i = true ↔ xs[i]? = some c := by
  unfold charAt
  rcases h with rfl | ⟨rfl, rfl⟩
  · rw [beq_iff_eq]
    by_cases hi : i < xs.length
    · rw [List.getElem?_append_left hi]
    · rw [List.getElem?_append_right (by omega), List.getElem?_eq_none (l := xs) (by omega)]
      cases hk : i - xs.length with
      | zero => simp [Ne.symm hc]
      | succ k => simp
  · simp

theorem IsBuf.char_end {buf xs : List Ch} (h : IsBuf buf xs) (c : Ch) (i : Nat) (hi : buf.length ≤ i) : ¬ xs[i]? = some c := by
  have : xs.length ≤ buf.length := by rcases h with rfl | ⟨rfl, rfl⟩ <;> simp
  rw [List.getElem?_eq_none (by omega)]
  simp

theorem matchLoop_iff (bs ps : List Ch) : matchLoop bs ps = true ↔ ps <+: bs := by
  fun_induction matchLoop bs ps with
  | case1 => simp
  | case2 => simp
  | case3 b bs p ps h => simp [List.cons_prefix_cons, h]
  | case4 b bs p ps h ih => simp at h; simp [List.cons_prefix_cons, h, ih]

theorem matchAt_iff (buf pat : List Ch) (i : Nat) (hp : pat ≠ []) : matchAt buf pat i = true ↔ pat <+: buf.drop i := by
  cases pat with
  | nil => exact absurd rfl hp
  | cons p ps =>
    simp only [matchAt, Bool.and_eq_true, matchLoop_iff, charAt, beq_iff_eq, and_iff_right_iff_imp]
    intro ⟨t, ht⟩
    have : (buf.drop i)[0]? = some p := by rw [← ht]; simp
    simpa using this

theorem IsBuf.pat {buf xs pat : List Ch} (h : IsBuf buf xs) (h0 : (0 : Ch) ∉ pat) (i : Nat) :
    pat <+: buf.drop i ↔ pat <+: xs.drop i := by
  rcases h with rfl | ⟨rfl, rfl⟩
  · by_cases hi : i ≤ xs.length
    · rw [List.drop_append_of_le_length hi]
      constructor
      · intro h
        rcases (List.prefix_concat_iff).1 (by simpa using h) with h | h
        · exact absurd (by rw [h]; simp) h0
        · exact h
      · exact fun h => h.trans (List.prefix_append _ _)
    · rw [List.drop_eq_nil_of_le (as := xs) (by omega), List.drop_eq_nil_of_le (by simp; omega)]
  · simp

theorem pat_end {xs pat : List Ch} (hp : pat ≠ []) (i : Nat) (hi : xs.length < i + pat.length) : ¬ pat <+: xs.drop i := by
  intro h
  have := h.length_le
  have := List.length_pos_iff.2 hp
  simp at *
  omega

theorem IsBuf.len {buf xs : List Ch} (h : IsBuf buf xs) : buf.length = xs.length + 1 ∨ (buf.length = 0 ∧ xs.length = 0) := by
  rcases h with rfl | ⟨rfl, rfl⟩
  · simp
  · simp

theorem IsBuf.any {buf xs set : List Ch} (h : IsBuf buf xs) (h0 : (0 : Ch) ∉ set) (i : Nat) :
    anyAt buf set i = true ↔ ∃ c ∈ set, xs[i]? = some c := by
  unfold anyAt
  rw [List.any_eq_true]
  constructor
  · rintro ⟨c, hm, hc⟩; exact ⟨c, hm, (h.char c (fun e => h0 (e ▸ hm)) i).1 hc⟩
  · rintro ⟨c, hm, hc⟩; exact ⟨c, hm, (h.char c (fun e => h0 (e ▸ hm)) i).2 hc⟩

theorem lastOfLoop_single (buf xs : List Ch) (h : IsBuf buf xs) (c : Ch) (hc : c ≠ 0) : ∀ it,
    (lastOfLoop buf [c] it it ≤ it ∧ xs[lastOfLoop buf [c] it it]? = some c ∧ ∀ i, lastOfLoop buf [c] it it < i → i ≤ it → ¬ xs[i]? = some c) ∨
    (lastOfLoop buf [c] it it = npos ∧ ∀ i, i ≤ it → ¬ xs[i]? = some c) := by
  have ha : ∀ i, anyAt buf [c] i = true ↔ xs[i]? = some c := by
    intro i; rw [h.any (by simpa using Ne.symm hc) i]; simp
  intro it
  induction it with
  | zero =>
    simp only [lastOfLoop]
    by_cases h0 : anyAt buf [c] 0 = true
    · simp only [h0, if_true]
      exact .inl ⟨Nat.le_refl _, (ha 0).1 h0, fun i h1 h2 => by omega⟩
    · simp only [h0]
      refine .inr ⟨rfl, fun i hi => ?_⟩
      rw [show i = 0 by omega]; exact fun e => h0 ((ha 0).2 e)
  | succ it ih =>
    simp only [lastOfLoop, Nat.add_sub_cancel]
    by_cases h0 : anyAt buf [c] (it + 1) = true
    · simp only [h0, if_true]
      exact .inl ⟨Nat.le_refl _, (ha _).1 h0, fun i h1 h2 => by omega⟩
    · simp only [h0]
      have hn : ¬ xs[it + 1]? = some c := fun e => h0 ((ha _).2 e)
      rcases ih with ⟨h1, h2, h3⟩ | ⟨h1, h2⟩
      · refine .inl ⟨by simp only [Bool.false_eq_true, if_false]; omega, by simpa using h2, fun i h4 h5 => ?_⟩
        by_cases hi : i = it + 1
        · subst hi; exact hn
        · exact h3 i (by simpa using h4) (by omega)
      · refine .inr ⟨by simpa using h1, fun i hi => ?_⟩
        by_cases hi2 : i = it + 1
        · subst hi2; exact hn
        · exact h2 i (by omega)

end Verif.FStr
