import Verif.XmlSort
import Mathlib.Tactic.Common

/-! # Sorted insertion: lemmas -/

namespace Verif.XmlSort

variable {α : Type}

theorem strLe_refl : ∀ a, strLe a a = true
  | [] => rfl
  | a :: as => by simp [strLe, strLe_refl as]

theorem strLe_total : ∀ a b, strLe a b = true ∨ strLe b a = true
  | [], _ => by simp [strLe]
  | _ :: _, [] => by simp [strLe]
  | a :: as, b :: bs => by
    have := strLe_total as bs
    simp only [strLe]
    by_cases h : a = b
    · subst h; simpa using this
    · simp [h, Ne.symm h]; omega

theorem strLe_trans : ∀ a b c, strLe a b = true → strLe b c = true → strLe a c = true
  | [], _, _ => by simp [strLe]
  | _ :: _, [], _ => by simp [strLe]
  | _ :: _, _ :: _, [] => by simp [strLe]
  | a :: as, b :: bs, c :: cs => by
    have := strLe_trans as bs cs
    simp only [strLe]
    by_cases h : a = b
    · subst h
      by_cases h' : a = c
      · subst h'; simpa using this
      · simp [h']
    · by_cases h' : b = c
      · subst h'; simp [h]; intro x _; exact x
      · by_cases h'' : a = c
        · subst h''; simp [h, h']; omega
        · simp [h, h', h'']; omega

theorem strLe_antisymm : ∀ a b, strLe a b = true → strLe b a = true → a = b
  | [], [] => by simp
  | [], _ :: _ => by simp [strLe]
  | _ :: _, [] => by simp [strLe]
  | a :: as, b :: bs => by
    have := strLe_antisymm as bs
    simp only [strLe]
    by_cases h : a = b
    · subst h; simpa using this
    · simp [h, Ne.symm h]; omega

theorem walk_some {child : Node α} : ∀ (rev post l : List (Node α)), walk child rev post = some l → ∃ a b, rev.reverse = a ++ b ∧ l = a ++ child :: (b ++ post) ∧
    (∃ p a', a = a' ++ [p] ∧ p.elem = true ∧ strLe p.name child.name = true) ∧ ∀ p ∈ b, p.elem = true → strLe p.name child.name = false := by
  intro rev
  induction rev with
  | nil => intro post l h; simp [walk] at h
  | cons p rev ih =>
    intro post l h
    rw [walk] at h
    by_cases he : p.elem = false
    · rw [if_pos he] at h
      obtain ⟨a, b, e1, e2, e3, e4⟩ := ih _ _ h
      refine ⟨a, b ++ [p], by simp [e1], by simp [e2], e3, ?_⟩
      intro q hq hqe
      rcases List.mem_append.mp hq with hq | hq
      · exact e4 q hq hqe
      · simp at hq; subst hq; simp [he] at hqe
    · rw [if_neg he] at h
      by_cases hs : strLe p.name child.name = true
      · rw [if_pos hs] at h
        simp at h
        exact ⟨rev.reverse ++ [p], [], by simp, by simp [← h], ⟨p, _, rfl, by simpa using he, hs⟩, by simp⟩
      · rw [if_neg hs] at h
        obtain ⟨a, b, e1, e2, e3, e4⟩ := ih _ _ h
        refine ⟨a, b ++ [p], by simp [e1], by simp [e2], e3, ?_⟩
        intro q hq hqe
        rcases List.mem_append.mp hq with hq | hq
        · exact e4 q hq hqe
        · simp at hq; subst hq; simpa using hs

theorem walk_none {child : Node α} : ∀ (rev post : List (Node α)), walk child rev post = none → ∀ p ∈ rev, p.elem = true → strLe p.name child.name = false := by
  intro rev
  induction rev with
  | nil => intro post h; simp
  | cons p rev ih =>
    intro post h q hq hqe
    rw [walk] at h
    by_cases he : p.elem = false
    · rw [if_pos he] at h
      rcases List.mem_cons.mp hq with rfl | hq
      · simp [he] at hqe
      · exact ih _ h q hq hqe
    · rw [if_neg he] at h
      by_cases hs : strLe p.name child.name = true
      · rw [if_pos hs] at h; simp at h
      · rw [if_neg hs] at h
        rcases List.mem_cons.mp hq with rfl | hq
        · simpa using hs
        · exact ih _ h q hq hqe

end Verif.XmlSort
