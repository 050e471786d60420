import Verif.VersionSpec
import Verif.Version
import Verif.ConvProps
import Mathlib.Data.List.Lex
import Mathlib.Tactic.Common

/-! # Lemmas for the properties in VersionProps -/

namespace Verif.FVer

open Verif.FStr (Ch)
open Verif.FConv
open Verif.FBld (decimal)

theorem before_iff (a b : Version) : Before a b ↔
    a.major < b.major ∨ (a.major = b.major ∧ (a.minor < b.minor ∨ (a.minor = b.minor ∧ a.revision < b.revision))) := by
  unfold Before
  simp [List.cons_lt_cons_iff]

theorem decimal_no_dot (n : Nat) : ∀ c ∈ decimal n, c ≠ 46 := by
  intro c hc h
  have := decimal_digits n c hc
  subst h
  exact absurd this (by decide)

theorem toUInt32_dot (n : Nat) (hn : n < 2 ^ 32) (rest post : List Ch) (h0 : 0 ∉ rest) (hd : ∀ c ∈ rest.head?, digit c = false) :
    (toUInt32 (decimal n ++ rest ++ 0 :: post)).map Prod.fst = some n := by
  have hz : (0 : Ch) ∉ decimal n ++ rest := by
    rw [List.mem_append]; rintro (h | h)
    · exact FBld.decimal_ne_zero n h
    · exact h0 h
  rw [toUInt32_eq _ _ hz]
  have hne : decimal n ≠ [] := by
    rw [FBld.decimal]; split <;> simp
  have hdw : (decimal n ++ rest).dropWhile blank = decimal n ++ rest := by
    apply dropWhile_of_neg
    intro c hc
    rw [List.head?_append_of_ne_nil _ hne] at hc
    exact digit_not_blank (decimal_digits n c (List.mem_of_mem_head? hc))
  have htw : (decimal n ++ rest).takeWhile digit = decimal n := by
    have h1 : rest.takeWhile digit = [] := by
      cases rest with
      | nil => rfl
      | cons c r => rw [List.takeWhile_cons_of_neg]; simp [hd c (by simp)]
    rw [List.takeWhile_append_of_pos (decimal_digits n), h1, List.append_nil]
  rw [hdw, htw, decVal_decimal, Nat.mod_eq_of_lt hn]
  rfl

theorem skipDot_dot (t rest : List Ch) (h0 : 0 ∉ t) (hd : ∀ c ∈ t, c ≠ 46) : skipDot (t ++ 46 :: rest) = some rest := by
  have : skipWhile (fun c => decide (c ≠ 46)) (t ++ 46 :: rest) = some (46 :: rest) := by
    induction t with
    | nil => simp [skipWhile]
    | cons c t ih =>
      have h1 : c ≠ 0 := by rintro rfl; simp at h0
      have h2 : c ≠ 46 := hd c (by simp)
      simp only [List.cons_append, skipWhile, h1, h2, ne_eq, not_false_eq_true, decide_true, and_self, if_true]
      exact ih (by simp at h0; exact h0.2) (fun c hc => hd c (by simp [hc]))
  simp only [skipDot, this, Option.bind_some, deref]
  simp

theorem skipDot_end (t post : List Ch) (h0 : 0 ∉ t) (hd : ∀ c ∈ t, c ≠ 46) : skipDot (t ++ 0 :: post) = some (0 :: post) := by
  have : skipWhile (fun c => decide (c ≠ 46)) (t ++ 0 :: post) = some (0 :: post) := by
    induction t with
    | nil => simp [skipWhile]
    | cons c t ih =>
      have h1 : c ≠ 0 := by rintro rfl; simp at h0
      have h2 : c ≠ 46 := hd c (by simp)
      simp only [List.cons_append, skipWhile, h1, h2, ne_eq, not_false_eq_true, decide_true, and_self, if_true]
      exact ih (by simp at h0; exact h0.2) (fun c hc => hd c (by simp [hc]))
  simp only [skipDot, this, Option.bind_some, deref]
  simp

theorem fst_of_map {α β : Type} {o : Option (α × β)} {a : α} (h : o.map Prod.fst = some a) : ∃ b, o = some (a, b) := by
  cases o with
  | none => simp at h
  | some p => exact ⟨p.2, by simp at h; rw [← h]⟩

end Verif.FVer
