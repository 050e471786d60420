import Verif.ConvTerms
import Verif.ConvLemmas
import Verif.BuilderProps

/-! # Lemmas for the properties in ConvProps -/

namespace Verif.FConv

open Verif.FStr (Ch)
open Verif.FBld (Bld Holds numeral)

theorem tokNat_decimal (n : Nat) : tokNat (FBld.decimal n) = n := by
  unfold tokNat
  have : (fun c => decide (IsDigit c)) = digit := by funext c; exact (digit_iff c).symm
  rw [this, takeWhile_all (decimal_digits n), decVal_decimal]

theorem intNumeral_eq (i : Int) : intNumeral i = FBld.decimalInt i := by
  unfold intNumeral FBld.decimalInt
  rw [← FBld.decimal_eq_numeral]
  split <;> rfl

theorem splitSign_decimalInt (i : Int) :
    splitSign ((FBld.decimalInt i).dropWhile blank) = (if i < 0 then -1 else 1, FBld.decimal i.natAbs) := by
  unfold FBld.decimalInt
  split
  · rw [dropWhile_of_neg (by intro c hc; simp at hc; subst hc; decide)]; rfl
  · have hd : (FBld.decimal i.natAbs).dropWhile blank = FBld.decimal i.natAbs := by
      apply dropWhile_of_neg
      intro c hc
      exact digit_not_blank (decimal_digits _ c (List.mem_of_mem_head? hc))
    rw [hd]
    obtain ⟨c, u, e⟩ := List.exists_cons_of_ne_nil (decimal_ne_nil i.natAbs)
    rw [e]
    have hc : digit c = true := decimal_digits i.natAbs c (by rw [e]; simp)
    have : c ≠ 45 := by rintro rfl; exact absurd hc (by decide)
    exact if_neg this

theorem writes_int (k : Nat) (i : Int) (hi : -2 ^ 31 ≤ i ∧ i < 2 ^ 31) :
    ∃ b, FBld.appendI32 (FBld.ofReserve k) i = some b ∧ FBld.toText b = some (intNumeral i) := by
  have h0 : Holds (FBld.ofReserve k) [] := by simpa [FBld.ofReserve] using FBld.reserve_holds FBld.holds_null k
  obtain ⟨b, e, hb⟩ := FBld.op_refines h0 (.i32 i) hi
  have hz : (0 : Ch) ∉ intNumeral i := by rw [intNumeral_eq]; exact FBld.decimalInt_ne_zero i
  have hb' : Holds b (intNumeral i) := by simpa [FBld.Op.spec, intNumeral] using hb
  refine ⟨b, e, ?_⟩
  obtain ⟨v', j, e', h1, _⟩ := FBld.toCharPtr_holds hb'
  unfold FBld.toText
  rw [e', Option.bind_some, h1]
  exact FBld.textAt_of _ hz j

theorem sign_natAbs (i : Int) : (if i < 0 then (-1 : Int) else 1) * i.natAbs = i := by
  split <;> omega

theorem intDigits_decimalInt (i : Int) : intDigits (FBld.decimalInt i) = FBld.decimal i.natAbs := by
  unfold intDigits
  rw [splitSign_decimalInt, takeWhile_all (decimal_digits _)]

theorem afterInt_decimalInt (i : Int) : afterInt (FBld.decimalInt i) = [] := by
  unfold afterInt
  rw [splitSign_decimalInt, dropWhile_all (decimal_digits _)]
  rfl

theorem hex_byte_table : ∀ i : Fin 256,
    hexVal (FBld.hexDigit (i.val / 16 % 16)) = some (i.val / 16) ∧ hexVal (FBld.hexDigit (i.val % 16)) = some (i.val % 16) ∧
    FBld.hexDigit (i.val / 16 % 16) ≠ 0 ∧ FBld.hexDigit (i.val % 16) ≠ 0 ∧ FBld.hexDigit (i.val % 16) ≠ 120 ∧
    FBld.hexDigit (i.val % 16) ≠ 88 := by decide +kernel

theorem tokens_run_space (a : List Ch) (ha : a ≠ []) (hb : ∀ c ∈ a, blank c = false) (rest : List Ch) :
    tokens (a ++ 32 :: rest) = a :: tokens rest := by
  have hne : a ++ 32 :: rest ≠ [] := by simp
  rw [tokens_cons hne]
  · have e1 : (a ++ 32 :: rest).takeWhile (fun c => !blank c) = a := by
      rw [List.takeWhile_append_of_pos (by intro c hc; simp [hb c hc]), List.takeWhile_cons_of_neg (by decide)]; simp
    have e2 : (a ++ 32 :: rest).dropWhile (fun c => !blank c) = 32 :: rest := by
      rw [List.dropWhile_append_of_pos (by intro c hc; simp [hb c hc]), List.dropWhile_cons_of_neg (by decide)]
    rw [e1, e2, tokens_space (Or.inl rfl)]
  · intro c hc
    obtain ⟨x, u, rfl⟩ := List.exists_cons_of_ne_nil ha
    simp at hc; subst hc
    exact hb _ (by simp)

theorem tokens_run (a : List Ch) (ha : a ≠ []) (hb : ∀ c ∈ a, blank c = false) : tokens a = [a] := by
  rw [tokens_cons ha (fun c hc => hb c (List.mem_of_mem_head? hc)),
    takeWhile_all (fun c hc => by simp [hb c hc]), dropWhile_all (fun c hc => by simp [hb c hc])]
  rfl

/-- Tokens separated by single spaces. -/
def joined : List (List Ch) → List Ch
  | [] => []
  | [a] => a
  | a :: b :: rest => a ++ 32 :: joined (b :: rest)

theorem tokens_joined : ∀ l : List (List Ch), (∀ a ∈ l, a ≠ [] ∧ ∀ c ∈ a, blank c = false) → tokens (joined l) = l
  | [], _ => rfl
  | [a], h => tokens_run a (h a (by simp)).1 (h a (by simp)).2
  | a :: b :: rest, h => by
    rw [joined, tokens_run_space a (h a (by simp)).1 (h a (by simp)).2, tokens_joined (b :: rest) fun x hx => h x (by simp [hx])]

theorem decimalInt_nonblank (i : Int) : FBld.decimalInt i ≠ [] ∧ ∀ c ∈ FBld.decimalInt i, blank c = false ∧ c ≠ 13 ∧ c ≠ 0 := by
  have hd : ∀ n, ∀ c ∈ FBld.decimal n, blank c = false ∧ c ≠ 13 ∧ c ≠ 0 := by
    intro n c hc
    have := decimal_digits n c hc
    refine ⟨digit_not_blank this, ?_, ?_⟩ <;> (rintro rfl; exact absurd this (by decide))
  unfold FBld.decimalInt
  split
  · refine ⟨by simp, ?_⟩
    intro c hc
    rcases List.mem_cons.1 hc with rfl | hc
    · decide
    · exact hd _ c hc
  · exact ⟨decimal_ne_nil _, hd _⟩

theorem mem_joined {c : Ch} : ∀ {l : List (List Ch)}, c ∈ joined l → c = 32 ∨ ∃ a ∈ l, c ∈ a
  | [], h => by cases h
  | [a], h => Or.inr ⟨a, by simp, h⟩
  | a :: b :: rest, h => by
    rw [joined] at h
    rcases List.mem_append.1 h with h | h
    · exact Or.inr ⟨a, by simp, h⟩
    · rcases List.mem_cons.1 h with h | h
      · exact Or.inl h
      · rcases mem_joined h with h | ⟨x, hx, hc⟩
        · exact Or.inl h
        · exact Or.inr ⟨x, by simp [List.mem_cons.1 hx], hc⟩

theorem writeRest_holds (w : Bld → Int → Option Bld) (text : Int → List Ch)
    (hw : ∀ b l x, Holds b l → ∃ b', w b x = some b' ∧ Holds b' (l ++ text x)) :
    ∀ (xs : List Int) (b : Bld) (l : List Ch) (x : Int), Holds b (l ++ text x) →
      ∃ b', writeRest w b xs = some b' ∧ Holds b' (l ++ joined ((x :: xs).map text)) := by
  intro xs
  induction xs with
  | nil => intro b l x h; exact ⟨b, rfl, by simpa [joined] using h⟩
  | cons y ys ih =>
    intro b l x h
    obtain ⟨b1, e1, h1⟩ := FBld.appendChar_holds h 32
    obtain ⟨b2, e2, h2⟩ := hw b1 _ y h1
    obtain ⟨b3, e3, h3⟩ := ih b2 (l ++ text x ++ [32]) y h2
    refine ⟨b3, by unfold writeRest; rw [e1, Option.bind_some, e2, Option.bind_some, e3], ?_⟩
    have : l ++ joined ((x :: y :: ys).map text) = l ++ text x ++ [32] ++ joined ((y :: ys).map text) := by
      simp [joined]
    rw [this]; exact h3

theorem writeInts_holds (b : Bld) (h : Holds b []) (xs : List Int) :
    ∃ b', writeInts b xs = some b' ∧ Holds b' (joined (xs.map FBld.decimalInt)) := by
  have hw : ∀ b l x, Holds b l → ∃ b', FBld.appendI32 b x = some b' ∧ Holds b' (l ++ FBld.decimalInt x) :=
    fun b l x h => FBld.appendTerm_holds h _ (FBld.decimalInt_ne_zero x)
  cases xs with
  | nil => exact ⟨b, rfl, h⟩
  | cons x xs =>
    have hs : b.size = 0 := by obtain ⟨_, _, h2⟩ := h; simpa using h2
    obtain ⟨b1, e1, h1⟩ := hw b [] x h
    obtain ⟨b2, e2, h2⟩ := writeRest_holds FBld.appendI32 FBld.decimalInt hw xs b1 [] x h1
    refine ⟨b2, ?_, by simpa using h2⟩
    simp only [writeInts, hs, ne_eq, not_true_eq_false, if_false, Option.bind_some, e1, e2]

theorem ofReserve_holds (k : Nat) : Holds (FBld.ofReserve k) [] := by
  simpa [FBld.ofReserve] using FBld.reserve_holds FBld.holds_null k

theorem toText_of_holds {b : Bld} {l : List Ch} (h : Holds b l) (hz : 0 ∉ l) : FBld.toText b = some l := by
  obtain ⟨v', j, e', h1, _⟩ := FBld.toCharPtr_holds h
  unfold FBld.toText
  rw [e', Option.bind_some, h1]
  exact FBld.textAt_of _ hz j

theorem tokInt_decimalInt (i : Int) : tokInt (FBld.decimalInt i) = i := by
  have h1 := (splitSign_tok (FBld.decimalInt i)).1
  have hb := (decimalInt_nonblank i).2
  rw [takeWhile_all (p := fun c => !blank c) (fun c hc => by simp [(hb c hc).1])] at h1
  have h2 := splitSign_decimalInt i
  rw [dropWhile_of_neg (fun c hc => (hb c (List.mem_of_mem_head? hc)).1)] at h2
  rw [← h1, h2]
  show _ * ((decVal (List.takeWhile digit (FBld.decimal i.natAbs)) : Nat) : Int) = i
  rw [takeWhile_all (decimal_digits _), decVal_decimal, sign_natAbs]

theorem joined_ok (xs : List Int) :
    0 ∉ joined (xs.map FBld.decimalInt) ∧ 13 ∉ joined (xs.map FBld.decimalInt) ∧
    tokens (joined (xs.map FBld.decimalInt)) = xs.map FBld.decimalInt := by
  refine ⟨?_, ?_, ?_⟩
  · intro h
    rcases mem_joined h with h | ⟨a, ha, hc⟩
    · exact absurd h (by decide)
    · obtain ⟨i, _, rfl⟩ := List.mem_map.1 ha
      exact ((decimalInt_nonblank i).2 _ hc).2.2 rfl
  · intro h
    rcases mem_joined h with h | ⟨a, ha, hc⟩
    · exact absurd h (by decide)
    · obtain ⟨i, _, rfl⟩ := List.mem_map.1 ha
      exact ((decimalInt_nonblank i).2 _ hc).2.1 rfl
  · apply tokens_joined
    intro a ha
    obtain ⟨i, _, rfl⟩ := List.mem_map.1 ha
    exact ⟨(decimalInt_nonblank i).1, fun c hc => ((decimalInt_nonblank i).2 c hc).1⟩

theorem joined_lead (xs : List Int) : joined (xs.map FBld.decimalInt) = [] ∨ tokens (joined (xs.map FBld.decimalInt)) ≠ [] := by
  cases xs with
  | nil => exact Or.inl rfl
  | cons x xs => right; rw [(joined_ok (x :: xs)).2.2]; simp

end Verif.FConv
