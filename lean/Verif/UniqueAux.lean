import Verif.UniqueLemmas

/-! # Lemmas for the properties in UniqueProps -/

namespace Verif.FUniq

open Verif.FStr (Ch)
open Verif.FConv (digit decVal IsDigit)

theorem decimal_decVal (ds : List Ch) (hd : ∀ c ∈ ds, digit c = true) (hne : ds ≠ []) (h0 : ds.head? ≠ some 48) :
    0 < decVal ds ∧ FBld.decimal (decVal ds) = ds := by
  induction ds using List.reverseRecOn with
  | nil => exact absurd rfl hne
  | append_singleton xs c ih =>
    have hc := hd c (by simp)
    have hcn := FConv.digitI_toNat hc
    have hc2 : (48 : Int) ≤ c ∧ c ≤ 57 := by
      have := hc
      simp only [digit, Bool.and_eq_true, decide_eq_true_eq] at this
      exact this
    rw [FConv.decVal_append]
    have hv : decVal [c] = (c - 48).toNat := by simp [decVal]
    rw [hv, List.length_singleton, Nat.pow_one]
    have h9 : ∀ x : Int, 48 ≤ x ∧ x ≤ 57 → (x - 48).toNat < 10 ∧ 48 + ((x - 48).toNat : Int) = x := by intro x hx; omega
    obtain ⟨hlt, hback⟩ := h9 c hc2
    by_cases hx : xs = []
    · subst hx
      have hne48 : c ≠ 48 := by simpa using h0
      have hp : ∀ x : Int, 48 ≤ x → x ≠ 48 → 0 < (x - 48).toNat := by intro x h1 h2; omega
      refine ⟨by simpa [decVal] using hp c hc2.1 hne48, ?_⟩
      simp only [decVal, Nat.zero_mul, Nat.zero_add, List.nil_append]
      unfold FBld.decimal
      rw [if_pos hlt]
      exact congrArg (fun z => [z]) hback
    · obtain ⟨h1, h2⟩ := ih (fun d h => hd d (by simp [h])) hx (by
        obtain ⟨d, u, rfl⟩ := List.exists_cons_of_ne_nil hx
        simpa using h0)
      refine ⟨by omega, ?_⟩
      unfold FBld.decimal
      rw [if_neg (by omega), show (decVal xs * 10 + (c - 48).toNat) / 10 = decVal xs by omega,
        show (decVal xs * 10 + (c - 48).toNat) % 10 = (c - 48).toNat by omega, h2]
      exact congrArg (fun z => xs ++ [z]) hback

theorem canonical_eq {s : List Ch} (h : Canonical s) : (digits s = [] ∧ s = base s ∧ number s = 2 ^ 32 - 1) ∨
    (number s < 2 ^ 32 - 1 ∧ s = base s ++ FBld.decimal (number s)) := by
  have hs := base_append_digits s
  rcases h with h | ⟨h1, h2⟩
  · left; refine ⟨h, ?_, by simp [number, h]⟩
    conv => lhs; rw [← hs, h, List.append_nil]
  · by_cases hd : digits s = []
    · left; refine ⟨hd, ?_, by simp [number, hd]⟩
      conv => lhs; rw [← hs, hd, List.append_nil]
    · right
      have hn : number s = decVal (digits s) := by
        unfold number; rw [if_neg hd, Nat.mod_eq_of_lt (by omega)]
      refine ⟨by rw [hn]; exact h1, ?_⟩
      have : FBld.decimal (decVal (digits s)) = digits s := by
        rcases h2 with h2 | h2
        · rw [h2]; decide +kernel
        · exact (decimal_decVal _ (digits_all s) hd h2).2
      rw [hn, this, hs]

theorem key_injective {s t : List Ch} (hs : Canonical s) (ht : Canonical t) (h : key s = key t) : s = t := by
  simp only [key, Prod.mk.injEq] at h
  obtain ⟨h1, h2⟩ := h
  rcases canonical_eq hs with ⟨_, e1, n1⟩ | ⟨n1, e1⟩ <;> rcases canonical_eq ht with ⟨_, e2, n2⟩ | ⟨n2, e2⟩
  · rw [e1, e2, h1]
  · omega
  · omega
  · rw [e1, e2, h1, h2]

end Verif.FUniq
