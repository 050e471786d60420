import Verif.StrSpec
import Verif.StrLemmas
import Mathlib.Data.List.Lex
import Mathlib.Data.Int.Order.Basic

/-! # Lemmas for the properties in StrProps -/

namespace Verif.FStr

open Verif.FVec

theorem npos_big {n : Nat} (h : n < 2 ^ 63) : n ≤ npos := by unfold npos; omega

theorem all_determinate (l : List (Option Ch)) (h : ∀ c ∈ l, ∃ x, c = some x ∧ x ≠ 0) : ∃ xs : List Ch, l = xs.map some ∧ (0 : Ch) ∉ xs := by
  induction l with
  | nil => exact ⟨[], rfl, by simp⟩
  | cons c l ih =>
    obtain ⟨xs, rfl, hx⟩ := ih (fun c hc => h c (by simp [hc]))
    obtain ⟨x, rfl, h0⟩ := h c (by simp)
    exact ⟨x :: xs, rfl, by simp [hx, Ne.symm h0]⟩

theorem step_ideal (v : Str) (l : List (Option Ch)) (b : Bool) (h : Holds v l b) (hlen : l.length < 2 ^ 63) (op : Op) (hok : op.ok l b) :
    ∃ v' l', step v op = some v' ∧ Ideal l op l' ∧ Holds v' l' (keepsBuffer l b op) := by
  cases op with
  | setText xs =>
    obtain ⟨v', e, h'⟩ := ofText_holds xs [] hok.1 (npos_big hok.2)
    exact ⟨v', _, e, .setText l xs, h'⟩
  | setPrefix xs n =>
    obtain ⟨v', e, h'⟩ := ofPrefix_holds xs [] n hok.1 (npos_big hok.2)
    exact ⟨v', _, e, .setPrefix l xs n, h'⟩
  | setRepeat n c =>
    obtain ⟨v', e, h'⟩ := ofRepeat_holds n c
    exact ⟨v', _, e, .setRepeat l n c, h'⟩
  | assign w ys b' =>
    obtain ⟨v', e, h'⟩ := assign_holds v l b h w ys b' hok.1
    exact ⟨v', _, e, .assign l w ys b', h'⟩
  | appendText xs n =>
    obtain ⟨v', e, h'⟩ := insertText_holds v l b h npos n xs [] hok.1
    rw [List.take_of_length_le (npos_big hlen), List.drop_eq_nil_of_le (npos_big hlen), List.append_nil] at h'
    exact ⟨v', _, e, .appendText l xs n, h'⟩
  | appendStr w ys b' =>
    obtain ⟨v', e, h'⟩ := insertStr_holds v l b h npos w ys b' hok.1
    rw [List.take_of_length_le (npos_big hlen), List.drop_eq_nil_of_le (npos_big hlen), List.append_nil] at h'
    exact ⟨v', _, e, .appendStr l w ys b', h'⟩
  | appendChar c =>
    by_cases hc : c = 0
    · subst hc
      exact ⟨v, l, by simp [step, FStr.appendChar], by simpa using Ideal.appendChar l 0, h⟩
    · have hb : b = true := by rcases hok with hok | hok; exact absurd hok hc; exact hok
      subst hb
      obtain ⟨v', e, h'⟩ := appendChar_holds v l h c hc
      exact ⟨v', _, e, by simpa [hc] using Ideal.appendChar l c, h'⟩
  | insertText off xs n =>
    obtain ⟨v', e, h'⟩ := insertText_holds v l b h off n xs [] hok.1
    exact ⟨v', _, e, .insertText l off xs n, h'⟩
  | insertStr off w ys b' =>
    obtain ⟨v', e, h'⟩ := insertStr_holds v l b h off w ys b' hok.1
    exact ⟨v', _, e, .insertStr l off w ys b', h'⟩
  | erase a c =>
    obtain ⟨v', e, h'⟩ := erase_holds v l b h a c
    exact ⟨v', _, e, .erase l a c, h'⟩
  | substr a n =>
    obtain ⟨xs, rfl, hx⟩ := all_determinate l hok.2
    obtain ⟨v', e, h'⟩ := substr_holds v xs b h hx (by simpa using hlen) a n
    refine ⟨v', _, e, .substr _ a n, ?_⟩
    simpa [keepsBuffer] using h'
  | resize n =>
    obtain ⟨v', new, e, h', hn⟩ := resize_holds v l b h n
    exact ⟨v', _, e, .resize l n new hn, .inr ⟨rfl, h'⟩⟩
  | clear =>
    obtain ⟨v', e, h'⟩ := clear_holds v l b h
    exact ⟨v', _, e, .clear l, h'⟩
  | popBack =>
    have hb : b = true := by
      rcases h with ⟨-, hl, -⟩ | ⟨hb, -⟩
      · exact absurd hl hok
      · exact hb
    subst hb
    obtain ⟨v', e, h'⟩ := popBack_holds v l h hok
    exact ⟨v', _, e, .popBack l, h'⟩

theorem ltLoop_eq (xs ys : List Ch) (hx : (0 : Ch) ∉ xs) (hy : (0 : Ch) ∉ ys) :
    ltLoop (xs ++ [0]) (ys ++ [0]) = some (decide (xs ++ [0] < ys ++ [0])) := by
  induction xs generalizing ys with
  | nil =>
    cases ys with
    | nil => decide
    | cons y ys =>
      simp only [List.mem_cons, not_or] at hy
      simp [ltLoop, List.cons_lt_cons_iff, hy.1]
  | cons x xs ih =>
    simp only [List.mem_cons, not_or] at hx
    cases ys with
    | nil => simp [ltLoop, List.cons_lt_cons_iff, Ne.symm hx.1]
    | cons y ys =>
      simp only [List.mem_cons, not_or] at hy
      simp only [List.cons_append, ltLoop, List.cons_lt_cons_iff]
      by_cases hxy : x = y
      · subst hxy
        simp [Ne.symm hx.1, ih ys hx.2 hy.2]
      · simp [hxy]

theorem eqLoop_eq (xs ys : List Ch) (hx : (0 : Ch) ∉ xs) (hy : (0 : Ch) ∉ ys) :
    eqLoop (xs ++ [0]) (ys ++ [0]) = some (decide (xs = ys)) := by
  induction xs generalizing ys with
  | nil =>
    cases ys with
    | nil => decide
    | cons y ys =>
      simp only [List.mem_cons, not_or] at hy
      simp [eqLoop, hy.1]
  | cons x xs ih =>
    simp only [List.mem_cons, not_or] at hx
    cases ys with
    | nil => simp [eqLoop, Ne.symm hx.1]
    | cons y ys =>
      simp only [List.mem_cons, not_or] at hy
      simp only [List.cons_append, eqLoop]
      by_cases hxy : x = y
      · subst hxy
        simp [Ne.symm hx.1, ih ys hx.2 hy.2]
      · simp [hxy]

end Verif.FStr
