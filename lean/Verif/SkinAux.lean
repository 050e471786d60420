import Verif.SkinLemmas
import Mathlib.Algebra.Order.Field.Rat
import Mathlib.Algebra.Order.BigOperators.Group.List

/-! # Lemmas for the properties in SkinProps -/

namespace Verif.Skin

variable {K : Type} [Field K] [LinearOrder K] [IsStrictOrderedRing K]

theorem total_pos {l : List (Pair K)} (hne : l ≠ []) (h : ∀ p ∈ l, 0 < p.weight) : 0 < total l := by
  rw [total_eq]
  exact List.sum_pos _ (by intro x hx; obtain ⟨p, hp, rfl⟩ := List.mem_map.mp hx; exact h p hp) (by simpa using hne)

end Verif.Skin
