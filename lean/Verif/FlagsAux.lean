import Verif.FlagsSpec
import Verif.Flags
import Mathlib.Tactic.Common

/-! # Lemmas for the properties in FlagsProps -/

namespace Verif.FFlags

theorem mask_bit (a p j : Nat) (h : a + p < 32) : (mask a p).getLsbD j = decide (j = a + p) := by
  simp only [mask, BitVec.getLsbD_shiftLeft, BitVec.getLsbD_one]
  by_cases h1 : j = a + p
  · subst h1; simp [h]
  · simp [h1]; omega

theorem get_mask (fl : BitVec 32) (a p : Nat) (h : a + p < 32) : get fl (mask a p) = fl.getLsbD (a + p) := by
  unfold get
  by_cases hb : fl.getLsbD (a + p) = true
  · rw [hb]
    simp only [ne_eq, decide_not, Bool.not_eq_eq_eq_not, Bool.not_true, decide_eq_false_iff_not]
    intro h0
    have : (fl &&& mask a p).getLsbD (a + p) = false := by rw [h0]; simp
    rw [BitVec.getLsbD_and, hb, mask_bit a p _ h] at this
    simp at this
  · have : fl &&& mask a p = 0 := by
      apply BitVec.eq_of_getLsbD_eq
      intro i _
      rw [BitVec.getLsbD_and, mask_bit a p _ h]
      by_cases hi : i = a + p
      · subst hi; simp at hb; simp [hb]
      · simp [hi]
    simp [this, Bool.eq_false_iff.2 hb]

/-- The bit of a flag. -/
def Flag.bit (counts : List Nat) (f : Flag) : Nat := nextAvailableBit (counts.drop (f.up + 1)) + f.pos

theorem next_sum (cs : List Nat) : nextAvailableBit cs = cs.sum := by
  induction cs with
  | nil => rfl
  | cons c cs ih => simp [nextAvailableBit, ih, Nat.add_comm]

theorem bit_range (counts : List Nat) (f : Flag) (h : f.Declared counts) :
    (counts.drop (f.up + 1)).sum ≤ f.bit counts ∧ f.bit counts < (counts.drop f.up).sum := by
  obtain ⟨c, hc, hp⟩ := h
  obtain ⟨hl, rfl⟩ := List.getElem?_eq_some_iff.1 hc
  rw [List.drop_eq_getElem_cons hl]
  simp only [Flag.bit, next_sum, List.sum_cons]
  omega

theorem drop_sum_le (counts : List Nat) (i j : Nat) (h : i ≤ j) : (counts.drop j).sum ≤ (counts.drop i).sum := by
  obtain ⟨k, rfl⟩ := Nat.exists_eq_add_of_le h
  rw [← List.drop_drop]
  clear h
  generalize counts.drop i = l
  induction k generalizing l with
  | zero => simp
  | succ k ih =>
    cases l with
    | nil => simp
    | cons c l => simp only [List.drop_succ_cons, List.sum_cons]; have := ih l; omega

theorem bit_inj (counts : List Nat) (f g : Flag) (hf : f.Declared counts) (hg : g.Declared counts) (h : f ≠ g) :
    f.bit counts ≠ g.bit counts := by
  have h1 := bit_range counts f hf
  have h2 := bit_range counts g hg
  rcases Nat.lt_trichotomy f.up g.up with hl | hl | hl
  · have := drop_sum_le counts (f.up + 1) g.up hl; omega
  · intro he
    unfold Flag.bit at he
    rw [hl] at he
    exact h (by cases f; cases g; simp at hl he ⊢; exact ⟨hl, he⟩)
  · have := drop_sum_le counts (g.up + 1) f.up hl; omega

theorem bit_lt (counts : List Nat) (f : Flag) (hf : f.Declared counts) (ht : counts.sum ≤ 32) : f.bit counts < 32 := by
  have h1 := bit_range counts f hf
  have := drop_sum_le counts 0 f.up (Nat.zero_le _)
  simp at this
  omega

end Verif.FFlags
