import Verif.ConvMoreSpec
import Verif.ConvMore
import Verif.ConvFloatProps
import Verif.StrSearchProps
import Mathlib.Data.List.TakeWhile
import Mathlib.Tactic.FinCases
import Mathlib.Data.Fintype.Basic

/-! # Lemmas for the properties in ConvMoreProps -/

namespace Verif.FConv

open Verif.FStr (Ch)

theorem toFloat_nil (ov : Ov) (post : List Ch) : toFloat ov (0 :: post) = some (0, 0 :: post) := by simp [toFloat, deref]

/-- The condition under which a token text reads as its literals. -/
def FloatOk (t : List Ch) : Prop := 13 ∉ t ∧ ∀ tok ∈ tokens t, ∃ L : Lit, L.WF ∧ tok = L.text

theorem readFloats_eq (ov : Ov) : ∀ (n : Nat) (t : List Ch), 0 ∉ t → FloatOk t → (t = [] ∨ tokens t ≠ []) →
    ∃ t', tokens t' = (tokens t).drop n ∧ (t' = [] ∨ tokens t' ≠ []) ∧ 0 ∉ t' ∧ FloatOk t' ∧ (0 < n → t ≠ [] → t'.length < t.length) ∧
      t'.length ≤ t.length ∧ ∀ post, readFloats ov n (t ++ 0 :: post) =
        some (((tokens t).take n).map (tokFloat ov) ++ List.replicate (n - (tokens t).length) 0, t' ++ 0 :: post) := by
  intro n
  induction n with
  | zero => intro t h0 hok ht; exact ⟨t, by simp, ht, h0, hok, by simp, Nat.le_refl _, fun post => by simp [readFloats]⟩
  | succ n ih =>
    intro t h0 hok ht
    by_cases hn : t = []
    · subst hn
      obtain ⟨t', a1, a2, a3, a4, a5, a6, a7⟩ := ih [] h0 hok (Or.inl rfl)
      have ht' : t' = [] := List.length_eq_zero_iff.1 (Nat.le_zero.1 a6)
      refine ⟨t', by simpa [tokens, tokensFrom] using a1, a2, a3, a4, fun _ h => absurd rfl h, a6, fun post => ?_⟩
      have := a7 post
      simp only [List.nil_append] at this ⊢
      rw [readFloats, toFloat_nil, Option.bind_some]
      simp only
      rw [this, Option.map_some]
      simp [tokens, tokensFrom, List.replicate_succ]
    · obtain ⟨tok, u, e1, e2, e3, e4, e5, e6⟩ := readsToken_f ov t h0 hok (ht.resolve_left hn)
      obtain ⟨t', a1, a2, a3, a4, a5, a6, a7⟩ := ih u e4 e5 e2
      refine ⟨t', by rw [a1, e1]; rfl, a2, a3, a4, fun _ _ => by omega, by omega, fun post => ?_⟩
      rw [readFloats, e6 post, Option.bind_some]
      simp only
      rw [a7 post, Option.map_some, e1]
      simp

theorem shown_lit {fmt rnd} (hf : Formats fmt rnd) (q : ℚ) :
    ∃ L : Lit, L.WF ∧ floatText fmt (.fin q) = some L.text ∧ L.value = shown rnd q := by
  by_cases h : |q| < 1 / 2 ^ 23
  · refine ⟨⟨false, [48], none, none⟩, ⟨by decide, ?_, Or.inl (by decide), ?_⟩, ?_, ?_⟩
    · intro F hF; cases hF
    · intro x hx; cases hx
    · show (if |q| < 1 / 2 ^ 23 then some [48] else floatToString (fmt q)) = _
      rw [if_pos h]; rfl
    · rw [shown, if_pos h]
      have : decVal [48] = 0 := by decide
      simp [Lit.value, fracVal, this]
  · obtain ⟨G, hG, e1, e2⟩ := hf q (not_lt.1 h)
    refine ⟨G.lit, G.lit_wf hG, ?_, ?_⟩
    · show (if |q| < 1 / 2 ^ 23 then some [48] else floatToString (fmt q)) = _
      rw [if_neg h, e1]
      unfold floatToString
      rw [G.clean hG, if_pos (G.length_lit hG)]
    · rw [G.lit_value, e2, shown, if_neg h]

theorem spaced_lits {fmt rnd} (hf : Formats fmt rnd) : ∀ qs : List ℚ, ∃ Ls : List Lit, (∀ L ∈ Ls, L.WF) ∧ Ls.map Lit.value = qs.map (shown rnd) ∧
    spaced (fun q => floatText fmt (.fin q)) qs = some (joined (Ls.map Lit.text))
  | [] => ⟨[], by simp, rfl, rfl⟩
  | [q] => by
    obtain ⟨L, h1, h2, h3⟩ := shown_lit hf q
    exact ⟨[L], by simpa using h1, by simp [h3], by simpa [spaced, joined] using h2⟩
  | q :: r :: qs => by
    obtain ⟨L, h1, h2, h3⟩ := shown_lit hf q
    obtain ⟨Ls, g1, g2, g3⟩ := spaced_lits hf (r :: qs)
    cases Ls with
    | nil => simp at g2
    | cons M Ls =>
      refine ⟨L :: M :: Ls, ?_, ?_, ?_⟩
      · intro x hx
        rcases List.mem_cons.1 hx with rfl | hx
        · exact h1
        · exact g1 x hx
      · rw [List.map_cons, g2, h3]; rfl
      · rw [spaced, h2, Option.bind_some, g3, Option.map_some]; rfl

theorem joined_lits (Ls : List Lit) (h : ∀ L ∈ Ls, L.WF) :
    0 ∉ joined (Ls.map Lit.text) ∧ FloatOk (joined (Ls.map Lit.text)) ∧ tokens (joined (Ls.map Lit.text)) = Ls.map Lit.text := by
  have hb : ∀ k : Ch, k ≠ 32 → (∀ L ∈ Ls, k ∉ L.text) → k ∉ joined (Ls.map Lit.text) := by
    intro k hk hL hm
    rcases mem_joined hm with e | ⟨a, ha, hc⟩
    · exact hk e
    · obtain ⟨L, hL', rfl⟩ := List.mem_map.1 ha
      exact hL L hL' hc
  have ht : tokens (joined (Ls.map Lit.text)) = Ls.map Lit.text := by
    apply tokens_joined
    intro a ha
    obtain ⟨L, hL, rfl⟩ := List.mem_map.1 ha
    exact ⟨(lit_nonblank L (h L hL)).1, fun c hc => ((lit_nonblank L (h L hL)).2 c hc).1⟩
  refine ⟨hb 0 (by decide) fun L hL hm => ((lit_nonblank L (h L hL)).2 0 hm).2.1 rfl,
    ⟨hb 13 (by decide) fun L hL hm => ((lit_nonblank L (h L hL)).2 13 hm).2.2 rfl, ?_⟩, ht⟩
  rw [ht]
  intro tok htok
  obtain ⟨L, hL, rfl⟩ := List.mem_map.1 htok
  exact ⟨L, h L hL, rfl⟩

theorem tokens_values (ov : Ov) (Ls : List Lit) (h : ∀ L ∈ Ls, L.WF) : (Ls.map Lit.text).map (tokFloat ov) = Ls.map Lit.value := by
  rw [List.map_map]
  apply List.map_congr_left
  intro L hL
  exact tokFloat_lit ov L (h L hL)

theorem joined_ne_nil (Ls : List Lit) (h : ∀ L ∈ Ls, L.WF) (hne : Ls ≠ []) : joined (Ls.map Lit.text) ≠ [] := by
  intro e
  have := (joined_lits Ls h).2.2
  rw [e] at this
  exact hne (List.map_eq_nil_iff.1 this.symm)

theorem readFloats_joined (ov : Ov) (Ls : List Lit) (h : ∀ L ∈ Ls, L.WF) (hne : Ls ≠ []) (post : List Ch) :
    readFloats ov Ls.length (joined (Ls.map Lit.text) ++ 0 :: post) = some (Ls.map Lit.value, 0 :: post) := by
  obtain ⟨a1, a2, a3⟩ := joined_lits Ls h
  obtain ⟨t', b1, b2, b3, b4, b5, b6, b7⟩ := readFloats_eq ov Ls.length _ a1 a2 (Or.inr (by rw [a3]; simpa using hne))
  rw [a3] at b1 b7
  have hn : tokens t' = [] := by rw [b1]; simp
  have ht' : t' = [] := b2.resolve_right fun h => h hn
  rw [b7 post, ht', List.take_of_length_le (by simp), tokens_values ov Ls h]
  simp

/-- The parser reads rows of `k` tokens. -/
def ReadsRow {α : Type} (k : Nat) (ok : List Ch → Prop) (val : List Ch → α) (p : List Ch → Option (List α × List Ch)) : Prop :=
  ∀ t row rest, 0 ∉ t → ok t → tokens t = row ++ rest → row.length = k →
    ∃ t', tokens t' = rest ∧ (t' = [] ∨ tokens t' ≠ []) ∧ t'.length < t.length ∧ 0 ∉ t' ∧ ok t' ∧
      ∀ post, p (t ++ 0 :: post) = some (row.map val, t' ++ 0 :: post)

theorem tokens_nil : tokens [] = [] := rfl

theorem readsRow_v (ov : Ov) (k : Nat) (hk : 0 < k) : ReadsRow k FloatOk (tokFloat ov) (toVector ov k) := by
  intro t row rest h0 hok ht hl
  have hn : t ≠ [] := by
    rintro rfl
    rw [tokens_nil] at ht
    have := congrArg List.length ht
    simp at this; omega
  have htn : tokens t ≠ [] := by
    rw [ht]; intro e
    have := congrArg List.length e
    rw [List.length_append, List.length_nil] at this
    omega
  obtain ⟨t', b1, b2, b3, b4, b5, b6, b7⟩ := readFloats_eq ov k t h0 hok (Or.inr htn)
  rw [ht] at b1 b7
  refine ⟨t', by rw [b1, ← hl, List.drop_left], b2, b5 hk hn, b3, b4, fun post => ?_⟩
  unfold toVector
  rw [deref_eq, Option.bind_some, if_neg (headD_ne h0 hn), b7 post, List.take_left' hl]
  have : k - (row ++ rest).length = 0 := by simp; omega
  rw [this]
  simp

theorem pushRows {ok val k} {p : List Ch → Option (List ℚ × List Ch)} (hp : ReadsRow k ok val p) (post : List Ch) :
    ∀ (rows : List (List (List Ch))) (fuel : Nat) (t : List Ch) (acc : List (List ℚ)), t.length < fuel → 0 ∉ t → ok t →
      (t = [] ∨ tokens t ≠ []) → tokens t = rows.flatten → (∀ r ∈ rows, r.length = k) →
      pushRest p acc fuel (t ++ 0 :: post) = some (acc ++ rows.map (·.map val)) := by
  intro rows
  induction rows with
  | nil =>
    intro fuel t acc hf h0 hok ht htok hr
    have : t = [] := ht.resolve_right fun h => h htok
    subst this
    obtain ⟨f, rfl⟩ : ∃ f, fuel = f + 1 := ⟨fuel - 1, by omega⟩
    simp [pushRest, deref]
  | cons row rows ih =>
    intro fuel t acc hf h0 hok ht htok hr
    obtain ⟨f, rfl⟩ : ∃ f, fuel = f + 1 := ⟨fuel - 1, by omega⟩
    obtain ⟨t', e1, e2, e3, e4, e5, e6⟩ := hp t row rows.flatten h0 hok (by rw [htok]; rfl) (hr row (by simp))
    have hn : t ≠ [] := by rintro rfl; simp at e3
    unfold pushRest
    rw [deref_eq, Option.bind_some, if_neg (headD_ne h0 hn), e6 post, Option.bind_some,
      ih f t' _ (by omega) e4 e5 e2 e1 fun r hm => hr r (by simp [hm])]
    simp

theorem fillRows {ok val k} {p : List Ch → Option (List ℚ × List Ch)} (hp : ReadsRow k ok val p) (post : List Ch) :
    ∀ (old : List (List ℚ)) (rows : List (List (List Ch))) (t : List Ch) (done : List (List ℚ)), 0 ∉ t → ok t →
      (t = [] ∨ tokens t ≠ []) → tokens t = rows.flatten → (∀ r ∈ rows, r.length = k) →
      ∃ t', fillOld p done old (t ++ 0 :: post) =
          some (done ++ (rows.take old.length).map (·.map val), old.drop rows.length, t' ++ 0 :: post) ∧
        tokens t' = (rows.drop old.length).flatten ∧ (t' = [] ∨ tokens t' ≠ []) ∧ t'.length ≤ t.length ∧ 0 ∉ t' ∧ ok t' := by
  intro old
  induction old with
  | nil => intro rows t done h0 hok ht htok hr; exact ⟨t, by simp [fillOld], by simpa using htok, ht, Nat.le_refl _, h0, hok⟩
  | cons o old ih =>
    intro rows t done h0 hok ht htok hr
    cases rows with
    | nil =>
      have : t = [] := ht.resolve_right fun h => h htok
      subst this
      exact ⟨[], by simp [fillOld, deref], by simp [tokens_nil], Or.inl rfl, Nat.le_refl _, h0, hok⟩
    | cons row rows =>
      obtain ⟨t', e1, e2, e3, e4, e5, e6⟩ := hp t row rows.flatten h0 hok (by rw [htok]; rfl) (hr row (by simp))
      have hn : t ≠ [] := by rintro rfl; simp at e3
      obtain ⟨t'', g1, g2, g3, g4, g5, g6⟩ := ih rows t' (done ++ [row.map val]) e4 e5 e2 e1 fun r hm => hr r (by simp [hm])
      refine ⟨t'', ?_, by simpa using g2, g3, by omega, g5, g6⟩
      unfold fillOld
      rw [deref_eq, Option.bind_some, if_neg (headD_ne h0 hn), e6 post, Option.bind_some]
      simp only
      rw [g1]
      simp

theorem toVecList_eq {ok val k} {p : List Ch → Option (List ℚ × List Ch)} (hp : ReadsRow k ok val p) (hk : 0 < k) (t post : List Ch)
    (rows : List (List (List Ch))) (old : List (List ℚ)) (h0 : 0 ∉ t) (hok : ok t) (ht : t = [] ∨ tokens t ≠ [])
    (htok : tokens t = rows.flatten) (hr : ∀ r ∈ rows, r.length = k) :
    toVecList p (t ++ 0 :: post) old = some (rows.map (·.map val)) := by
  unfold toVecList
  rw [deref_eq, Option.bind_some]
  by_cases hn : t = []
  · subst hn
    have : rows = [] := by
      cases rows with
      | nil => rfl
      | cons r rows =>
        rw [tokens_nil] at htok
        have := congrArg List.length htok
        have h2 := hr r (by simp)
        rw [List.flatten_cons, List.length_append] at this
        simp at this; omega
    subst this
    simp [resizeTo]
  · rw [if_neg (headD_ne h0 hn)]
    obtain ⟨t', e1, e2, e3, e4, e5, e6⟩ := fillRows hp post old rows t [] h0 hok ht htok hr
    rw [e1, Option.bind_some]
    simp only
    rw [pushRows hp post (rows.drop old.length) _ t' [] (by simp; omega) e5 e6 e3 e2
      fun r hm => hr r (List.mem_of_mem_drop hm), Option.map_some]
    simp only [resizeTo, List.nil_append]
    congr 1
    rcases Nat.le_total old.length rows.length with h | h
    · rw [List.drop_eq_nil_of_le h, List.append_nil, ← List.map_append, List.take_append_drop]
      have hl : (rows.map (·.map val)).length = ((rows.take old.length).map (·.map val)).length + ((rows.drop old.length).map (·.map val)).length := by
        simp; omega
      rw [List.take_of_length_le (by omega), hl]
      simp
    · rw [List.take_of_length_le h, List.drop_eq_nil_of_le h]
      simp only [List.map_nil, List.append_nil, List.length_nil, Nat.add_zero]
      rw [List.take_left' rfl]
      simp

end Verif.FConv
