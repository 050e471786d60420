import Verif.VersionAux
import Verif.Version
import Verif.ConvProps
import Mathlib.Data.List.Lex
import Mathlib.Tactic.Common

/-!
# Properties of version numbers (C45)
-/

namespace Verif.FVer

open Verif.FStr (Ch)
open Verif.FConv
open Verif.FBld (decimal)

/-- **C45 (partial).** `<` is the lexicographic order, `<=` is that order or equality, `IsEquivalent` is equality, and for different versions
`>` and `>=` are the reversed order. What is missing: `>` and `>=` of equal versions, see `version_violated`. -/
theorem version_order_partial (a b : Version) :
    (lt a b = true ↔ Before a b) ∧ (le a b = true ↔ Before a b ∨ a = b) ∧ (equivalent a b = true ↔ a = b) ∧
    (a ≠ b → (gt a b = true ↔ Before b a) ∧ (ge a b = true ↔ Before b a)) := by
  obtain ⟨a1, a2, a3⟩ := a
  obtain ⟨b1, b2, b3⟩ := b
  simp only [before_iff, Version.mk.injEq, ne_eq, lt, le, gt, ge, equivalent]
  refine ⟨?_, ?_, ?_, fun hne => ⟨?_, ?_⟩⟩
  · split_ifs <;> simp <;> omega
  · split_ifs <;> simp <;> omega
  · simp [and_assoc]
  · split_ifs <;> simp <;> omega
  · split_ifs <;> simp <;> omega

example : Before ⟨1, 4, 0⟩ ⟨1, 4, 1⟩ ∧ Before ⟨1, 4, 1⟩ ⟨2, 0, 0⟩ := by simp [before_iff]

/-- **C45 is violated.** Every version is newer than itself, and none is newer than or equal to itself. -/
theorem version_violated (a : Version) : gt a a = true ∧ ge a a = false := by
  obtain ⟨a1, a2, a3⟩ := a
  simp [gt, ge, le, lt]

/-- **C45 (partial).** Parsing the text "a.b.c" gives the version (a, b, c), "a.b" gives (a, b, 0) and "a" gives (a, 0, 0), for all 32-bit
numbers and whatever follows the terminator. -/
theorem version_parse_partial (a b c : Nat) (ha : a < 2 ^ 32) (hb : b < 2 ^ 32) (hc : c < 2 ^ 32) (post : List Ch) :
    parse (decimal a ++ 46 :: decimal b ++ 46 :: decimal c ++ 0 :: post) = some ⟨a, b, c⟩ ∧
    parse (decimal a ++ 46 :: decimal b ++ 0 :: post) = some ⟨a, b, 0⟩ ∧
    parse (decimal a ++ 0 :: post) = some ⟨a, 0, 0⟩ := by
  have z := FBld.decimal_ne_zero
  have nd := decimal_no_dot
  have dot : digit 46 = false := by decide
  have hz : toUInt32 (0 :: post) = some (0, 0 :: post) := by simp [toUInt32, deref]
  have hsz : skipDot (0 :: post) = some (0 :: post) := skipDot_end [] post (by simp) (by simp)
  obtain ⟨x3, h3⟩ := fst_of_map (toUInt32_dot c hc [] post (by simp) (by simp))
  obtain ⟨x2, h2⟩ := fst_of_map (toUInt32_dot b hb (46 :: decimal c) post (by simp [z]) (by simp [dot]))
  obtain ⟨x2', h2'⟩ := fst_of_map (toUInt32_dot b hb [] post (by simp) (by simp))
  obtain ⟨x1, h1⟩ := fst_of_map (toUInt32_dot a ha (46 :: decimal b ++ 46 :: decimal c) post (by simp [z]) (by simp [dot]))
  obtain ⟨x1', h1'⟩ := fst_of_map (toUInt32_dot a ha (46 :: decimal b) post (by simp [z]) (by simp [dot]))
  obtain ⟨x1'', h1''⟩ := fst_of_map (toUInt32_dot a ha [] post (by simp) (by simp))
  simp only [List.append_nil, List.append_assoc, List.cons_append] at h1 h1' h1'' h2 h2' h3 ⊢
  refine ⟨?_, ?_, ?_⟩
  · unfold parse
    rw [h1, Option.bind_some, skipDot_dot _ _ (z a) (nd a), Option.bind_some, h2, Option.bind_some, skipDot_dot _ _ (z b) (nd b),
      Option.bind_some, h3]
    rfl
  · unfold parse
    rw [h1', Option.bind_some, skipDot_dot _ _ (z a) (nd a), Option.bind_some, h2', Option.bind_some, skipDot_end _ _ (z b) (nd b),
      Option.bind_some, hz]
    rfl
  · unfold parse
    rw [h1'', Option.bind_some, skipDot_end _ _ (z a) (nd a), Option.bind_some, hz, Option.bind_some, hsz, Option.bind_some, hz]
    rfl

/-- "1.4.1" -/
example : parse [49, 46, 52, 46, 49, 0] = some ⟨1, 4, 1⟩ := by decide +kernel

end Verif.FVer
