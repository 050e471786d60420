import Verif.BuilderSpec
import Verif.BuilderLemmas

/-! # Lemmas for the properties in BuilderProps -/

namespace Verif.FBld

open Verif.FStr (Ch)

theorem toDigits_step (n : Nat) (h : 10 ≤ n) : Nat.toDigits 10 n = Nat.toDigits 10 (n / 10) ++ [Nat.digitChar (n % 10)] := by
  rw [Nat.toDigits_of_base_le (by omega) h]

theorem digitChar_toNat : ∀ d : Fin 10, ((Nat.digitChar d.val).toNat) = 48 + d.val := by decide

theorem decimal_eq_numeral (n : Nat) : decimal n = numeral n := by
  induction n using Nat.strongRecOn with
  | ind n ih =>
    unfold decimal
    split
    · rename_i h
      unfold numeral
      rw [Nat.toDigits_of_lt_base h, List.map_singleton, digitChar_toNat ⟨n, h⟩]
      simp
    · rename_i h
      rw [ih (n / 10) (by omega)]
      unfold numeral
      rw [toDigits_step n (by omega), List.map_append, List.map_singleton, digitChar_toNat ⟨n % 10, by omega⟩]
      simp

theorem hexDigit_table : ∀ i : Fin 256, [hexDigit (i.val / 16 % 16), hexDigit (i.val % 16)] = hexPair i.val := by
  decide +kernel

theorem clear_holds {v : Bld} {l} (h : Holds v l) : Holds (FBld.clear v) [] := by
  have := prefix_holds h 0 (by omega)
  rwa [List.take_zero] at this

theorem op_refines {v : Bld} {l} (h : Holds v l) (o : Op) (ho : o.Legal l) : ∃ v', o.run v = some v' ∧ Holds v' (o.spec l) := by
  have hsz : v.size = l.length := by obtain ⟨_, _, h2⟩ := h; exact h2
  cases o with
  | char c => exact appendChar_holds h c
  | text mem => exact appendText_holds mem h ho
  | textLen mem len => exact appendLen_holds h mem len ho
  | line mem =>
    obtain ⟨v1, e1, h1⟩ := appendText_holds mem h ho
    obtain ⟨v2, e2, h2⟩ := appendChar_holds h1 10
    exact ⟨v2, by show appendLine v mem = _; unfold appendLine; rw [e1, Option.bind_some, e2], h2⟩
  | builder b =>
    obtain ⟨m, hm⟩ := ho
    have : (b.buf.take b.size).filterMap id = m := by rw [take_holds hm]; simp
    show ∃ v', _ ∧ Holds v' (l ++ _)
    rw [this]; exact appendBld_holds h hm
  | self => exact appendSelf_holds h
  | u32 n =>
    have := appendTerm_holds h (decimal n) (decimal_ne_zero n)
    show ∃ v', appendU32 v n = _ ∧ Holds v' (l ++ numeral n)
    unfold appendU32
    rw [Nat.mod_eq_of_lt ho, ← decimal_eq_numeral]; exact this
  | i32 i =>
    have := appendTerm_holds h (decimalInt i) (decimalInt_ne_zero i)
    show ∃ v', appendI32 v i = _ ∧ Holds v' (l ++ (if i < 0 then [45] else []) ++ numeral i.natAbs)
    rw [← decimal_eq_numeral]
    unfold appendI32
    by_cases hi : i < 0
    · simpa [decimalInt, hi] using this
    · simpa [decimalInt, hi] using this
  | hex8 i =>
    have := appendHex8_holds h i
    rw [hexDigit_table ⟨i, ho⟩] at this; exact this
  | pop =>
    refine ⟨popBack v, rfl, ?_⟩
    show Holds _ l.dropLast
    rw [List.dropLast_eq_take, ← hsz]
    exact prefix_holds h _ (by omega)
  | clear => exact ⟨_, rfl, clear_holds h⟩
  | setText mem => exact appendText_holds mem (clear_holds h) ho
  | removeFrom s =>
    refine ⟨FBld.removeFrom v s, rfl, ?_⟩
    show Holds _ (if 0 ≤ s then l.take s.toNat else l)
    unfold FBld.removeFrom
    rw [toInt32_small (by rw [hsz]; exact ho), hsz]
    by_cases h0 : 0 ≤ s
    · by_cases h1 : (l.length : Int) > s
      · rw [if_pos ⟨h1, h0⟩, if_pos h0]; exact prefix_holds h _ (by omega)
      · rw [if_neg (by omega), if_pos h0, List.take_of_length_le (by omega)]; exact h
    · rw [if_neg (by omega), if_neg h0]; exact h
  | removeRange s e => exact removeRange_holds h s e ho.1 ho.2.1 ho.2.2
  | reserve n => exact ⟨_, rfl, reserve_holds h n⟩
  | charPtr =>
    obtain ⟨v', j, e, h1, h2⟩ := toCharPtr_holds h
    exact ⟨v', e, ⟨_, h1, h2⟩⟩

theorem rindexLoop_none (b : List (Option Ch)) (c : Ch) : ∀ p, (∀ i, 1 ≤ i → i ≤ p → ∃ x, peek b i = some x ∧ x ≠ c) →
    rindexLoop b c p = some (-1) := by
  intro p
  induction p with
  | zero => intro _; rfl
  | succ p ih =>
    intro h
    obtain ⟨x, e, hx⟩ := h (p + 1) (by omega) (by omega)
    unfold rindexLoop
    rw [e, Option.bind_some, if_neg hx]
    exact ih fun i h1 h2 => h i h1 (by omega)

theorem rindexLoop_some (b : List (Option Ch)) (c : Ch) (k : Nat) (hk : 1 ≤ k) (hkb : peek b k = some c) :
    ∀ p, k ≤ p → (∀ i, k < i → i ≤ p → ∃ x, peek b i = some x ∧ x ≠ c) → rindexLoop b c p = some (k : Int) := by
  intro p
  induction p with
  | zero => intro h; omega
  | succ p ih =>
    intro hp h
    unfold rindexLoop
    by_cases hkp : k = p + 1
    · rw [← hkp, hkb, Option.bind_some, if_pos rfl]
    · obtain ⟨x, e, hx⟩ := h (p + 1) (by omega) (by omega)
      rw [e, Option.bind_some, if_neg hx]
      exact ih (by omega) fun i h1 h2 => h i h1 (by omega)

theorem peek_holds {v : Bld} {l : List Ch} (h : Holds v l) (i : Nat) (hi : i < l.length) : peek v.buf i = some l[i] := by
  obtain ⟨j, h1, _⟩ := h
  unfold peek
  rw [h1, List.getElem?_append_left (by simpa using hi)]
  simp [hi]

end Verif.FBld
