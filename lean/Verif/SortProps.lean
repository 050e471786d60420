import Verif.SortAux
import Verif.Sort
import Mathlib.Data.List.Perm.Basic
import Mathlib.Order.Defs.LinearOrder
import Mathlib.Tactic.Use

/-!
# Properties of `fm::comparator` sorting (C07)
-/

namespace Verif.FSort

variable {T : Type}

/-- C07: for an array of at least `count` elements and any comparator, `sort` terminates without leaving the array, permutes
it and leaves everything from `count` on alone; and if the comparator is a strict order (asymmetric and transitive), no later
element of the sorted part compares below an earlier one. -/
theorem sort_ordered_permutation (cmp : T → T → Bool) (data : List T) (count : Nat) (h : count ≤ data.length) :
    ∃ d, sort cmp data count = some d ∧ (d.take count).Perm (data.take count) ∧ d.drop count = data.drop count ∧
      ((∀ a b, cmp a b = true → cmp b a = false) → (∀ a b c, cmp a b = true → cmp b c = true → cmp a c = true) →
        (d.take count).Pairwise fun a b => cmp b a = false) := by
  obtain ⟨d, e, hw, hs⟩ := quicksort_ok cmp _ data 0 count rfl h
  have hl := hw.len
  have hd : d.drop count = data.drop count := by
    apply List.ext_getElem?
    intro k
    rw [List.getElem?_drop, List.getElem?_drop]
    exact hw.out _ (by omega)
  refine ⟨d, e, ?_, hd, fun asym trans => ?_⟩
  · have := hw.perm
    rw [← List.take_append_drop count d, ← List.take_append_drop count data, hd] at this
    exact (List.perm_append_right_iff _).1 this
  · rw [List.pairwise_iff_getElem]
    intro i j hi hj hij
    simp only [List.length_take] at hi hj
    rw [List.getElem_take, List.getElem_take]
    exact hs asym trans i j _ _ (by omega) hij (by omega) (List.getElem?_eq_getElem _) (List.getElem?_eq_getElem _)

example : (3 : Nat) ≤ [5, 2, 9, 1].length ∧ sort (ascending fun a b => decide (a < b)) [5, 2, 9, 1] 3 = some [2, 5, 9, 1] := by
  decide +kernel

/-- C07, the two built-in comparators on a totally ordered type: the whole array in ascending, respectively descending order. -/
theorem sort_builtin {T : Type} [LinearOrder T] (data : List T) :
    (∃ d, sort (ascending fun a b => decide (a < b)) data data.length = some d ∧ d.Perm data ∧ d.Pairwise (· ≤ ·)) ∧
    (∃ d, sort (descending fun a b => decide (a < b)) data data.length = some d ∧ d.Perm data ∧ d.Pairwise (· ≥ ·)) := by
  constructor
  · obtain ⟨d, e, hp, hd, hs⟩ := sort_ordered_permutation (ascending fun a b => decide (a < b)) data data.length (Nat.le_refl _)
    have hl : d.length ≤ data.length := by
      have := congrArg List.length hd; simp at this; omega
    rw [List.take_of_length_le hl, List.take_length] at hp
    have hs := hs (by simp [ascending]; exact fun a b => le_of_lt) (by simp [ascending]; exact fun a b c => lt_trans)
    rw [List.take_of_length_le hl] at hs
    exact ⟨d, e, hp, hs.imp (by simp [ascending])⟩
  · obtain ⟨d, e, hp, hd, hs⟩ := sort_ordered_permutation (descending fun a b => decide (a < b)) data data.length (Nat.le_refl _)
    have hl : d.length ≤ data.length := by
      have := congrArg List.length hd; simp at this; omega
    rw [List.take_of_length_le hl, List.take_length] at hp
    have hs := hs (by simp [descending]; exact fun a b => le_of_lt) (by simp [descending]; exact fun a b c h1 h2 => lt_trans h2 h1)
    rw [List.take_of_length_le hl] at hs
    exact ⟨d, e, hp, hs.imp (by simp [descending])⟩

example : sort (descending fun a b => decide (a < b)) [5, 2, 9, 1] 4 = some [9, 5, 2, 1] := by decide +kernel

end Verif.FSort
