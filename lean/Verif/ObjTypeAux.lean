import Verif.ObjTypeSpec
import Verif.ObjType
import Mathlib.Logic.Relation
import Mathlib.Tactic.Common

/-! # Lemmas for the properties in ObjTypeProps -/

namespace Verif.FType

open Relation

theorem built_lt {ts : Types} (h : Built ts) : ∀ t p, IsParent ts t p → p < t := by
  induction h with
  | nil => intro t p h; simp [IsParent] at h
  | @root ts _ ih =>
    intro t p h
    unfold IsParent newRoot at h
    rcases Nat.lt_trichotomy t ts.length with hl | hl | hl
    · rw [List.getElem?_append_left hl] at h; exact ih t p h
    · subst hl; simp at h
    · rw [List.getElem?_eq_none (by simp; omega)] at h; cases h
  | @sub ts ts' q _ hn ih =>
    intro t p h
    unfold newType at hn
    split at hn
    · rename_i hq
      cases hn
      unfold IsParent at h
      rcases Nat.lt_trichotomy t ts.length with hl | hl | hl
      · rw [List.getElem?_append_left hl] at h; exact ih t p h
      · subst hl; simp at h; omega
      · rw [List.getElem?_eq_none (by simp; omega)] at h; cases h
    · cases hn

theorem isParent_lt_length {ts : Types} {t p : Nat} (h : IsParent ts t p) : t < ts.length := by
  unfold IsParent at h
  exact (List.getElem?_eq_some_iff.1 h).1

theorem rtg_le {ts : Types} (h : Built ts) {a b : Nat} (hr : ReflTransGen (IsParent ts) a b) : b ≤ a := by
  induction hr with
  | refl => exact Nat.le_refl _
  | tail _ h2 ih => exact Nat.le_trans (Nat.le_of_lt (built_lt h _ _ h2)) ih

end Verif.FType
