import Verif.ConvFloatSpec
import Verif.ConvFloatLemmas
import Verif.ConvProps
import Mathlib.Tactic.NormNum

/-! # Lemmas for the properties in ConvFloatProps -/

namespace Verif.FConv

open Verif.FStr (Ch)

/-- What the parser makes of a token on its own. -/
def tokFloat (ov : Ov) (tok : List Ch) : ℚ := ((toFloat ov (tok ++ [0])).map Prod.fst).getD 0

theorem tokFloat_lit (ov : Ov) (L : Lit) (hL : L.WF) : tokFloat ov L.text = L.value := by
  unfold tokFloat
  have := toFloat_lit ov L hL [] [] [] (by simp) (by intro c hc; simp at hc) (by simp) (Or.inr (by simp))
  simp only [List.nil_append] at this
  rw [this]; rfl

theorem readsToken_f (ov : Ov) : ReadsToken (fun t => 13 ∉ t ∧ ∀ tok ∈ tokens t, ∃ L : Lit, L.WF ∧ tok = L.text) (tokFloat ov)
    (toFloat ov) := by
  rintro t h ⟨h13, hl⟩ hne
  have hd : t.dropWhile blank ≠ [] := fun e => hne ((tokens_nil_iff t).2 e)
  obtain ⟨r1, r2, r3, r4⟩ := rest_props (t.dropWhile blank) hd (head_dropWhile _ _)
  have hs := r4.trans (List.dropWhile_suffix blank)
  rw [tokens_dropWhile] at r1
  obtain ⟨L, hL, hLt⟩ := hl ((t.dropWhile blank).takeWhile fun c => !blank c) (by rw [r1]; simp)
  refine ⟨_, _, r1, r2, Nat.lt_of_lt_of_le r3 (length_dropWhile_le _ _), notMem_of_suffix hs h, ⟨notMem_of_suffix hs h13, ?_⟩, ?_⟩
  · intro tok htok; exact hl tok (by rw [r1]; simp [htok])
  · intro post
    have hsu : ((t.dropWhile blank).dropWhile fun c => !blank c) <:+ t := (List.dropWhile_suffix _).trans (List.dropWhile_suffix _)
    have hsplit : t ++ 0 :: post = t.takeWhile blank ++ (L.text ++ (((t.dropWhile blank).dropWhile fun c => !blank c) ++ 0 :: post)) := by
      rw [← hLt, ← List.append_assoc (List.takeWhile (fun c => !blank c) _), List.takeWhile_append_dropWhile, ← List.append_assoc,
        List.takeWhile_append_dropWhile]
    rw [hsplit, toFloat_lit ov L hL _ _ _ (fun c hc => List.mem_takeWhile_imp hc) _ (notMem_of_suffix hsu h)
      (Or.inr (notMem_of_suffix hsu h13)), hLt, tokFloat_lit ov L hL]
    intro c hc
    have := head_dropWhile (fun c => !blank c) (t.dropWhile blank) c hc
    simpa using this

theorem decVal_zeros (X : List Ch) : decVal (X.dropWhile (· == 48)) = decVal X := by
  induction X with
  | nil => rfl
  | cons c X ih =>
    by_cases hc : c = 48
    · subst hc
      rw [List.dropWhile_cons_of_pos (by decide), ih, decVal]; simp
    · rw [List.dropWhile_cons_of_neg (by simpa using hc)]

theorem decVal_lt (X : List Ch) (h : ∀ c ∈ X, IsDigit c) : decVal X < 10 ^ X.length := by
  induction X with
  | nil => simp [decVal]
  | cons c X ih =>
    have h1 := ih fun d hd => h d (by simp [hd])
    have h2 : (c - 48).toNat ≤ 9 := by
      have : c ≤ 57 := (h c (by simp)).2
      have h3 : c - 48 ≤ 9 := Int.sub_le_of_sub_le (by simpa using this)
      exact Int.toNat_le.2 h3
    rw [decVal, List.length_cons, pow_succ]
    have := Nat.mul_le_mul_right (10 ^ X.length) h2
    omega

theorem cleanLoop_plain (P : List Ch) (hp : ∀ c ∈ P, c ≠ 43 ∧ c ≠ 101) : ∀ (cl : Bool) (out rest : List Ch),
    cleanLoop false cl out (P ++ rest) = cleanLoop false cl (out ++ P) rest := by
  induction P with
  | nil => intro cl out rest; simp
  | cons c P ih =>
    intro cl out rest
    obtain ⟨h1, h2⟩ := hp c (by simp)
    rw [List.cons_append]
    conv => lhs; unfold cleanLoop
    rw [if_neg h1]
    simp only [Bool.false_eq_true, if_false, h2, decide_false]
    rw [ih fun d hd => hp d (by simp [hd])]
    simp

theorem cleanLoop_exp_keep (X : List Ch) (hX : ∀ c ∈ X, c ≠ 43) : ∀ out, cleanLoop true false out X = out ++ X := by
  induction X with
  | nil => intro out; simp [cleanLoop]
  | cons c X ih =>
    intro out
    unfold cleanLoop
    rw [if_neg (hX c (by simp))]
    simp only [if_true, Bool.false_and, Bool.false_eq_true, if_false]
    rw [ih fun d hd => hX d (by simp [hd])]
    simp

theorem cleanLoop_exp (X : List Ch) (hX : ∀ c ∈ X, c ≠ 43) : ∀ out, cleanLoop true true out X = out ++ X.dropWhile (· == 48) := by
  induction X with
  | nil => intro out; simp [cleanLoop]
  | cons c X ih =>
    intro out
    have hX' : ∀ d ∈ X, d ≠ 43 := fun d hd => hX d (by simp [hd])
    unfold cleanLoop
    rw [if_neg (hX c (by simp))]
    by_cases hc : c = 48
    · subst hc
      simp only [if_true, Bool.true_and, decide_true]
      rw [ih hX', List.dropWhile_cons_of_pos (by decide)]
    · simp only [if_true, Bool.true_and, hc, decide_false, Bool.false_eq_true, if_false]
      rw [cleanLoop_exp_keep X hX', List.dropWhile_cons_of_neg (by simpa using hc)]
      simp

/-- The literal left after `FloatToString` removed the `+` and the zeros behind it. -/
def GText.lit (G : GText) : Lit :=
  ⟨G.neg, G.int, G.frac, G.ex.map fun x => (101, x.1, if x.1 then x.2 else x.2.dropWhile (· == 48))⟩

theorem GText.lit_wf (G : GText) (h : G.WF) : G.lit.WF := by
  obtain ⟨h1, h2, h3, h4, h5⟩ := h
  refine ⟨h1, fun F hF => (h4 F hF).1, Or.inl h2, ?_⟩
  intro x hx
  obtain ⟨y, hy, rfl⟩ := Option.map_eq_some_iff.1 (Option.mem_def.1 hx)
  obtain ⟨g1, g2, g3⟩ := h5 y hy
  have hlt : decVal y.2 < 10 ^ 3 := Nat.lt_of_lt_of_le (decVal_lt _ g1) (Nat.pow_le_pow_right (by decide) g3)
  refine ⟨Or.inl rfl, ?_, ?_, ?_⟩
  · show (if y.1 then y.2 else y.2.dropWhile (· == 48)) ≠ []
    split
    · rintro e; rw [e] at g2; exact g2 rfl
    · rintro e
      have := decVal_zeros y.2
      rw [e] at this; exact g2 this.symm
  · intro c hc
    refine g1 c ?_
    change c ∈ (if y.1 then y.2 else y.2.dropWhile (· == 48)) at hc
    split at hc
    · exact hc
    · exact (List.dropWhile_suffix _).subset hc
  · show decVal (if y.1 then y.2 else y.2.dropWhile (· == 48)) + 48 < 2 ^ 31
    split
    · omega
    · rw [decVal_zeros]; omega

theorem GText.lit_value (G : GText) : G.lit.value = G.value := by
  unfold Lit.value GText.value GText.lit
  cases hx : G.ex with
  | none => rfl
  | some x =>
    simp only [Option.map_some]
    cases x.1 <;> simp [decVal_zeros]

theorem GText.plain (G : GText) (h : G.WF) : ∀ c ∈ (if G.neg then [45] else []) ++ G.int ++ fracText G.frac, c ≠ 43 ∧ c ≠ 101 := by
  obtain ⟨h1, h2, h3, h4, h5⟩ := h
  have dg : ∀ c : Ch, IsDigit c → c ≠ 43 ∧ c ≠ 101 := by
    intro c hc
    constructor <;> (rintro rfl; revert hc; decide)
  intro c hc
  rcases List.mem_append.1 hc with hc | hc
  · rcases List.mem_append.1 hc with hc | hc
    · cases hn : G.neg <;> simp [hn] at hc
      subst hc; decide
    · exact dg c (h1 c hc)
  · cases hf : G.frac with
    | none => rw [hf] at hc; cases hc
    | some F =>
      rw [hf] at hc
      rcases List.mem_cons.1 hc with rfl | hc
      · decide
      · exact dg c ((h4 F hf).1 c hc)

theorem GText.clean (G : GText) (h : G.WF) : cleanLoop false true [] G.text = G.lit.text := by
  have hp := G.plain h
  obtain ⟨h1, h2, h3, h4, h5⟩ := h
  unfold GText.text
  rw [cleanLoop_plain _ hp, List.nil_append]
  cases hx : G.ex with
  | none => simp [cleanLoop, Lit.text, GText.lit, hx]
  | some x =>
    obtain ⟨g1, _, _⟩ := h5 x hx
    have g43 : ∀ c ∈ x.2, c ≠ 43 := by
      intro c hc; rintro rfl; exact absurd (g1 43 hc) (by decide)
    have e1 : ∀ out rest, cleanLoop false true out (101 :: rest) = cleanLoop true true (out ++ [101]) rest := by
      intro out rest; simp [cleanLoop]
    simp only [e1]
    cases hs : x.1 with
    | true =>
      have e2 : ∀ out rest, cleanLoop true true out (45 :: rest) = cleanLoop true false (out ++ [45]) rest := by
        intro out rest; simp [cleanLoop]
      simp only [if_true, e2]
      rw [cleanLoop_exp_keep _ g43]
      simp [Lit.text, GText.lit, hx, exText, hs]
    | false =>
      have e2 : ∀ out rest, cleanLoop true true out (43 :: rest) = cleanLoop true true out rest := by
        intro out rest; simp [cleanLoop]
      simp only [Bool.false_eq_true, if_false, e2]
      rw [cleanLoop_exp _ g43]
      simp [Lit.text, GText.lit, hx, exText, hs]

theorem GText.length_lit (G : GText) (h : G.WF) : G.lit.text.length < 128 := by
  obtain ⟨h1, h2, h3, h4, h5⟩ := h
  have a1 : (if G.neg then [45] else [] : List Ch).length ≤ 1 := by split <;> simp
  have a2 : (fracText G.frac).length ≤ 11 := by
    cases hf : G.frac with
    | none => simp [fracText]
    | some F => have := (h4 F hf).2; simp [fracText]; omega
  unfold Lit.text GText.lit
  cases hx : G.ex with
  | none => simp only [Option.map_none, List.length_append, List.length_nil]; omega
  | some x =>
    have := (h5 x hx).2.2
    have a3 : (exText (101, x.1, if x.1 then x.2 else x.2.dropWhile (· == 48))).length ≤ 5 := by
      have h7 := length_dropWhile_le (· == (48 : Ch)) x.2
      unfold exText
      cases x.1
      · simp; omega
      · simp; omega
    simp only [Option.map_some, List.length_append]
    omega

theorem floatLoop_inside : ∀ (t : List Ch) (st : FState), 0 ∉ t → 73 ∉ t → ∃ st' t', t' <:+ t ∧ st'.inf = st.inf ∧
    ∀ post, floatLoop .wrap st (t ++ 0 :: post) = some (st', t' ++ 0 :: post) := by
  intro t
  induction t with
  | nil => intro st _ _; exact ⟨st, [], List.suffix_refl _, rfl, fun post => by simp [floatLoop]⟩
  | cons c t ih =>
    intro st h0 h73
    have hc0 : c ≠ 0 := by rintro rfl; simp at h0
    have hc73 : c ≠ 73 := by rintro rfl; simp at h73
    have ht0 : 0 ∉ t := fun x => h0 (by simp [x])
    have ht73 : 73 ∉ t := fun x => h73 (by simp [x])
    by_cases h46 : c = 46
    · obtain ⟨st', t', h1, h2, h3⟩ := ih { st with dec := 1 } ht0 ht73
      refine ⟨st', t', h1.trans (List.suffix_cons _ _), h2, fun post => ?_⟩
      rw [List.cons_append]; unfold floatLoop
      rw [if_neg hc0, if_pos h46, h3]
    · by_cases hd : digit c = true
      · obtain ⟨st', t', h1, h2, h3⟩ := ih { st with val := st.val * 10 + ((c - 48 : Int) : ℚ), dec := st.dec * 10 } ht0 ht73
        refine ⟨st', t', h1.trans (List.suffix_cons _ _), h2, fun post => ?_⟩
        rw [List.cons_append]; unfold floatLoop
        rw [if_neg hc0, if_neg h46, if_pos hd, h3]
      · by_cases he : c = 101 ∨ c = 69
        · obtain ⟨v, x, ⟨A, hA⟩, _, h3⟩ := inside_i t ht0 (by simp)
          have hne : c :: A ≠ [] := by simp
          have hcat : c :: t = (c :: A).dropLast ++ (c :: A).getLast hne :: x := by
            have h := List.dropLast_append_getLast hne
            calc c :: t = (c :: A) ++ x := by rw [← hA]; rfl
              _ = ((c :: A).dropLast ++ [(c :: A).getLast hne]) ++ x := by rw [h]
              _ = _ := by simp
          refine ⟨{ st with exp := v }, (c :: A).getLast hne :: x, ⟨_, hcat.symm⟩, rfl, fun post => ?_⟩
          rw [List.cons_append]; unfold floatLoop
          rw [if_neg hc0, if_neg h46, if_neg hd, if_pos he, h3, Option.map_some]
          congr 2
          have : c :: (t ++ 0 :: post) = (c :: A).dropLast ++ (c :: A).getLast hne :: (x ++ 0 :: post) := by
            rw [← List.cons_append, hcat]; simp
          show stepBack (c :: (t ++ 0 :: post)) (x ++ 0 :: post) = _
          rw [this, stepBack_eq]; rfl
        · refine ⟨st, c :: t, List.suffix_refl _, rfl, fun post => ?_⟩
          rw [List.cons_append]; unfold floatLoop
          rw [if_neg hc0, if_neg h46, if_neg hd, if_neg he, if_neg hc73]

theorem skip_shorter (u : List Ch) (hu : u ≠ []) : ((u.dropWhile fun c => !blank c).dropWhile blank).length < u.length := by
  obtain ⟨c, v, rfl⟩ := List.exists_cons_of_ne_nil hu
  have h1 := length_dropWhile_le (fun c => !blank c) v
  have h2 := length_dropWhile_le blank (v.dropWhile fun c => !blank c)
  have h3 := length_dropWhile_le blank v
  by_cases hb : blank c = true
  · rw [List.dropWhile_cons_of_neg (by simp [hb]), List.dropWhile_cons_of_pos hb, List.length_cons]; omega
  · rw [List.dropWhile_cons_of_pos (by simpa using hb), List.length_cons]; omega

theorem signI_inside (t : List Ch) : ∃ sg t', t' <:+ t ∧ ∀ post, signI (t ++ 0 :: post) = some (sg, t' ++ 0 :: post) := by
  cases t with
  | nil => exact ⟨1, [], List.suffix_refl _, fun post => rfl⟩
  | cons c t =>
    by_cases h : c = 45
    · exact ⟨-1, t, List.suffix_cons _ _, fun post => by simp [signI, h]⟩
    · exact ⟨1, c :: t, List.suffix_refl _, fun post => by simp [signI, h]⟩

theorem inside_f : StaysInside [73] (toFloat .wrap) := by
  intro t h0 hk
  have h73 : 73 ∉ t := hk 73 (by simp)
  by_cases hn : t = []
  · subst hn
    exact ⟨0, [], List.suffix_refl _, fun h => absurd rfl h, fun post => by simp [toFloat, deref]⟩
  · obtain ⟨sg, t1, a1, a2⟩ := signI_inside (t.dropWhile blank)
    have s1 := a1.trans (List.dropWhile_suffix blank)
    obtain ⟨st, t2, b1, b2, b3⟩ := floatLoop_inside t1 ⟨0, 0, 0, false⟩ (notMem_of_suffix s1 h0) (notMem_of_suffix s1 h73)
    have s2 := b1.trans s1
    refine ⟨floatValue sg st, (t2.dropWhile fun c => !blank c).dropWhile blank,
      (List.dropWhile_suffix _).trans ((List.dropWhile_suffix _).trans s2), fun _ => ?_, fun post => ?_⟩
    · by_cases h2 : t2 = []
      · subst h2
        exact List.length_pos_iff.2 hn
      · exact Nat.lt_of_lt_of_le (skip_shorter t2 h2) s2.length_le
    · unfold toFloat
      rw [deref_eq, Option.bind_some, if_neg (headD_ne h0 hn), skipWhile_eq _ _ _ h0, Option.bind_some, a2, Option.bind_some]
      simp only
      rw [b3, Option.bind_some]
      simp only
      rw [b2]
      simp only [Bool.false_eq_true, if_false, Option.bind_some]
      rw [skipToken_eq _ _ (notMem_of_suffix s2 h0), Option.map_some]

end Verif.FConv
