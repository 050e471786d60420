import Verif.Enum
import Verif.EnumSpec

/-!
# Lemmas for the names of enumerations
-/

namespace Verif.Enum

theorem firstMatch_other {T : Type} {table : List (String × T)} {other : T} {s : String} (h : ∀ p ∈ table, s ≠ p.1) :
    firstMatch table other s = other := by
  induction table with
  | nil => rfl
  | cons p rest ih =>
    obtain ⟨n, v⟩ := p
    have h0 : s ≠ n := h (n, v) (by simp)
    simp [firstMatch, h0, ih fun q hq => h q (by simp [hq])]

theorem mem_of_firstMatch {T : Type} {table : List (String × T)} {other : T} {s : String} {v : T} (hv : v ≠ other)
    (h : firstMatch table other s = v) : (s, v) ∈ table := by
  induction table with
  | nil => exact absurd h.symm hv
  | cons p rest ih =>
    obtain ⟨n, w⟩ := p
    rw [firstMatch] at h
    split at h
    · rename_i e
      simp [e, h]
    · simp [ih h]

/-- A table whose pairs are the names of named values, with every name read back, gives names. -/
theorem Names.of_table {T : Type} {write : T → String} {read : String → T} {named : T → Prop} {other : T} (table : List (String × T))
    (hread : ∀ s, read s = firstMatch table other s) (hback : ∀ v, named v → read (write v) = v)
    (htable : ∀ p ∈ table, named p.2 ∧ write p.2 = p.1) : Names write read named other where
  back := hback
  distinct v w hv hw h := by rw [← hback v hv, ← hback w hw, h]
  rest s h := by
    rw [hread]
    exact firstMatch_other fun p hp => (htable p hp).2 ▸ h p.2 (htable p hp).1

end Verif.Enum
