import Verif.ConvFloatAux
import Verif.ConvFloatLemmas
import Verif.ConvProps
import Mathlib.Tactic.NormNum

/-!
# C15, C61, C62: decimal numbers as text

Specification: the literals `Lit` of `Verif/ConvFloatLemmas.lean` with their text and exact value. Numbers are exact: the roundings
of the C++ arithmetic are outside the model.
-/

namespace Verif.FConv

open Verif.FStr (Ch)

/-- **C61, partial: one number.** Behind any blanks, a decimal literal that ends the text or is followed by a blank reads as the number
it denotes, and the cursor is left on the next token or on the terminator. Missing: a `+` in front of the exponent and, behind an
exponent, carriage returns; see the violations. -/
theorem float_literal_partial (ov : Ov) (L : Lit) (hL : L.WF) (w u post : List Ch) (hw : ∀ c ∈ w, IsSpace c)
    (hu : ∀ c ∈ u.head?, IsSpace c) (h0 : 0 ∉ u) (h13 : L.ex = none ∨ 13 ∉ u) :
    toFloat ov (w ++ (L.text ++ (u ++ 0 :: post))) = some (L.value, (u.dropWhile fun c => decide (IsSpace c)) ++ 0 :: post) := by
  have hb : (fun c => decide (IsSpace c)) = blank := by
    funext c; rw [Bool.eq_iff_iff, decide_eq_true_iff, blank_iff]
  have hs : ∀ c, IsSpace c → blank c = true := fun c h => (blank_iff c).2 h
  rw [hb]
  exact toFloat_lit ov L hL w u post (fun c h => hs c (hw c h)) (fun c h => hs c (hu c h)) h0 h13

example : (⟨true, [49, 50], some [53], some (101, true, [49])⟩ : Lit).WF ∧
    (⟨true, [49, 50], some [53], some (101, true, [49])⟩ : Lit).text = [45, 49, 50, 46, 53, 101, 45, 49] ∧
    (⟨true, [49, 50], some [53], some (101, true, [49])⟩ : Lit).value = -5 / 4 := by
  refine ⟨⟨by decide, ?_, Or.inl (by decide), ?_⟩, by decide, ?_⟩
  · intro F hF; cases hF; decide
  · intro x hx; cases hx; exact ⟨by decide, by decide, by decide, by decide +kernel⟩
  · have h1 : decVal [49, 50] = 12 := by decide
    have h2 : decVal [53] = 5 := by decide
    have h3 : decVal [49] = 1 := by decide
    simp only [Lit.value, fracVal, h1, h2, h3]
    norm_num

/-- **C61, violated.** "1e+5" denotes 100000 and reads as 1. In "1e5\r2 3" the number 2 is lost: the cursor after the first number is on
the 3. -/
theorem float_literal_violated :
    (toFloat .wrap [49, 101, 43, 53, 0] = some (1, [0])) ∧
    (toFloat .wrap [49, 101, 53, 13, 50, 32, 51, 0]).map Prod.snd = some [51, 0] := by
  constructor
  · decide +kernel
  · decide +kernel

/-! ## lists -/

/-- **C61, partial: lists.** A text without carriage returns whose tokens are decimal literals reads as exactly the numbers they denote,
in order, whatever the target array held. -/
theorem float_list_partial (ov : Ov) (t post : List Ch) (Ls : List Lit) (hL : ∀ L ∈ Ls, L.WF) (ht : tokens t = Ls.map Lit.text)
    (h0 : 0 ∉ t) (h13 : 13 ∉ t) (hb : t = [] ∨ Ls ≠ []) (old : List ℚ) :
    toList (toFloat ov) 0 (t ++ 0 :: post) old = some (Ls.map Lit.value) := by
  rw [toList_eq (readsToken_f ov) 0 t post old h0 ⟨h13, ?_⟩ ?_, ht, List.map_map]
  · congr 1
    apply List.map_congr_left
    intro L hm
    exact tokFloat_lit ov L (hL L hm)
  · intro tok htok
    rw [ht] at htok
    obtain ⟨L, hm, rfl⟩ := List.mem_map.1 htok
    exact ⟨L, hL L hm, rfl⟩
  · refine hb.imp id fun h => ?_
    rw [ht]; simpa using h

example : tokens [49, 46, 53, 32, 45, 50] = [(⟨false, [49], some [53], none⟩ : Lit), ⟨true, [50], none, none⟩].map Lit.text := by
  decide

/-! ## printing and reading back -/

/-- **C62, partial.** A finite float of magnitude at least 2^-23 is written as a literal that reads back as exactly the number its
six-digit decimal `G` denotes (`fmt` is the formatting library). Missing: smaller magnitudes, infinities and NaN, see the
violations. -/
theorem float_print_partial (ov : Ov) (fmt : ℚ → List Ch) (q : ℚ) (hq : 1 / 2 ^ 23 ≤ |q|) (G : GText) (hG : G.WF)
    (hfmt : fmt q = G.text) :
    ∃ s, floatText fmt (.fin q) = some s ∧ 0 ∉ s ∧ ∀ post, toFloat ov (s ++ 0 :: post) = some (G.value, 0 :: post) := by
  have hw := G.lit_wf hG
  refine ⟨G.lit.text, ?_, fun h => ((lit_nonblank _ hw).2 0 h).2.1 rfl, fun post => ?_⟩
  · show (if |q| < 1 / 2 ^ 23 then some [48] else floatToString (fmt q)) = _
    rw [if_neg (not_lt.2 hq), hfmt]
    unfold floatToString
    rw [G.clean hG, if_pos (G.length_lit hG)]
  · have := toFloat_lit ov G.lit hw [] [] post (by simp) (by intro c hc; simp at hc) (by simp) (Or.inr (by simp))
    simp only [List.nil_append] at this
    rw [this, G.lit_value]; rfl

example : (⟨false, [49], some [53], some (false, [48, 54])⟩ : GText).WF ∧
    (⟨false, [49], some [53], some (false, [48, 54])⟩ : GText).text = [49, 46, 53, 101, 43, 48, 54] := by
  refine ⟨⟨by decide, by decide, by decide, ?_, ?_⟩, by decide⟩
  · intro F hF; cases hF; decide
  · intro x hx; cases hx; decide

/-- **C62, violated.** Infinities are written "INF" and "-INF", which the parser turns into 0 although it tests for them; NaN is written
"nan", not the "NaN" of the last branch, and reads as 0; and a nonzero float below 2^-23, such as 10^-7, is written "0". -/
theorem float_print_violated (ov : Ov) (fmt : ℚ → List Ch) :
    (floatText fmt .inf = some [73, 78, 70] ∧ toFloat ov [73, 78, 70, 0] = some (0, [0])) ∧
    (floatText fmt .ninf = some [45, 73, 78, 70] ∧ toFloat ov [45, 73, 78, 70, 0] = some (0, [0])) ∧
    (floatText fmt .nan = some [110, 97, 110] ∧ toFloat ov [110, 97, 110, 0] = some (0, [0])) ∧
    floatText fmt (.fin (1 / 10 ^ 7)) = some [48] := by
  refine ⟨⟨rfl, ?_⟩, ⟨rfl, ?_⟩, ⟨rfl, ?_⟩, ?_⟩
  · cases ov <;> decide +kernel
  · cases ov <;> decide +kernel
  · cases ov <;> decide +kernel
  · show (if |(1 / 10 ^ 7 : ℚ)| < 1 / 2 ^ 23 then _ else _) = _
    rw [if_pos]
    rw [abs_of_nonneg (by norm_num)]
    norm_num

/-! ## staying inside the text -/

/-- **C15, partial: floats.** `ToFloat` and `ToFloatList` read every terminated text without the letter `I` without looking past its
terminator. Missing: texts with an `I`, see `float_overread_violated`. -/
theorem float_inside_partial (t : List Ch) (h0 : 0 ∉ t) (h73 : 73 ∉ t) :
    (∃ v t', t' <:+ t ∧ ∀ post, toFloat .wrap (t ++ 0 :: post) = some (v, t' ++ 0 :: post)) ∧
    ∀ old, ∃ l, ∀ post, toList (toFloat .wrap) 0 (t ++ 0 :: post) old = some l := by
  have hk : ∀ k ∈ ([73] : List Ch), k ∉ t := by intro k hk; simp at hk; subst hk; exact h73
  refine ⟨?_, fun old => toList_inside inside_f 0 t old h0 hk⟩
  obtain ⟨v, t', h1, _, h2⟩ := inside_f t h0 hk
  exact ⟨v, t', h1, h2⟩

example : (0 : Ch) ∉ [101, 32, 45, 46] ∧ (73 : Ch) ∉ [101, 32, 45, 46] ∧
    (toFloat .wrap [101, 32, 45, 46, 0]).isSome := by decide +kernel

/-- **C15, violated.** On the texts "I" and "IN" the test for infinity steps over the terminator and reads on behind it: with nothing
there the read is out of bounds, and with other memory there it decides where the cursor ends up. -/
theorem float_overread_violated :
    toFloat .wrap [73, 0] = none ∧ toFloat .wrap [73, 78, 0] = none ∧
    (toFloat .wrap [73, 0, 49, 0]).map Prod.snd = some [0] ∧ (toFloat .wrap [73, 0, 49, 32, 50, 0]).map Prod.snd = some [50, 0] := by
  decide +kernel

end Verif.FConv
