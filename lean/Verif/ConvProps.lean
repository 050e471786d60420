import Verif.ConvAux
import Verif.ConvLemmas
import Verif.BuilderProps

/-!
# C11-C15: integers and lists of integers as text

Specification: `tokens`, `tokNat`, `tokInt` of `Verif/ConvSpec.lean` and the numerals of `Verif/BuilderProps.lean`.
A terminated text is `t ++ 0 :: post` with no zero in `t`; `post` is whatever memory follows it, possibly nothing.
-/

namespace Verif.FConv

open Verif.FStr (Ch)
open Verif.FBld (Bld Holds numeral)

/-- **C11.** Every `uint32` is written by the builder as its canonical numeral, and `ToUInt32` reads the same number back from that text
whatever follows the terminator, leaving the cursor on the terminator. -/
theorem uint32_roundtrip (k n : Nat) (hn : n < 2 ^ 32) :
    ∃ b, FBld.appendU32 (FBld.ofReserve k) n = some b ∧ FBld.toText b = some (numeral n) ∧
      ∀ post, toUInt32 (numeral n ++ 0 :: post) = some (n, 0 :: post) := by
  have h0 : Holds (FBld.ofReserve k) [] := by simpa [FBld.ofReserve] using FBld.reserve_holds FBld.holds_null k
  obtain ⟨b, e, hb⟩ := FBld.op_refines h0 (.u32 n) hn
  have hz : (0 : Ch) ∉ numeral n := by rw [← FBld.decimal_eq_numeral]; exact FBld.decimal_ne_zero n
  have hb' : Holds b (numeral n) := by simpa [FBld.Op.spec] using hb
  refine ⟨b, e, ?_, ?_⟩
  · obtain ⟨v', j, e', h1, _⟩ := FBld.toCharPtr_holds hb'
    unfold FBld.toText
    rw [e', Option.bind_some, h1]
    exact FBld.textAt_of _ hz j
  · intro post
    rw [toUInt32_eq _ _ hz, ← FBld.decimal_eq_numeral]
    have hd : (FBld.decimal n).dropWhile blank = FBld.decimal n := by
      apply dropWhile_of_neg
      intro c hc
      exact digit_not_blank (decimal_digits n c (List.mem_of_mem_head? hc))
    rw [hd, takeWhile_all (decimal_digits n), dropWhile_all (decimal_digits n), decVal_decimal, Nat.mod_eq_of_lt hn]
    rfl

example : (FBld.appendU32 (FBld.ofReserve 0) 4294967295).bind FBld.toText = some [52, 50, 57, 52, 57, 54, 55, 50, 57, 53] ∧
    toUInt32 [52, 50, 57, 52, 57, 54, 55, 50, 57, 53, 0] = some (4294967295, [0]) := by decide +kernel

/-- **C12**, on an implementation whose `int` arithmetic wraps around: every `int32`, the minimum included, survives being written
and read. -/
theorem int32_roundtrip_wrap (k : Nat) (i : Int) (hi : -2 ^ 31 ≤ i ∧ i < 2 ^ 31) :
    ∃ b, FBld.appendI32 (FBld.ofReserve k) i = some b ∧ FBld.toText b = some (intNumeral i) ∧
      ∀ post, toInt32 .wrap (intNumeral i ++ 0 :: post) = some (i, 0 :: post) := by
  obtain ⟨b, e1, e2⟩ := writes_int k i hi
  refine ⟨b, e1, e2, fun post => ?_⟩
  rw [intNumeral_eq, toInt32_wrap _ _ (FBld.decimalInt_ne_zero i), splitSign_decimalInt, intDigits_decimalInt, decVal_decimal,
    sign_natAbs, afterInt_decimalInt, Int.bmod_eq_of_le (by omega) (by omega)]
  rfl

/-- **C12, partial.** In standard C++, where overflow is undefined, the round trip holds for magnitudes up to 2^31 - 49. Missing: the
remaining 97 values, see `int32_overflow_violated`. -/
theorem int32_roundtrip_partial (k : Nat) (i : Int) (hi : i.natAbs + 48 < 2 ^ 31) :
    ∃ b, FBld.appendI32 (FBld.ofReserve k) i = some b ∧ FBld.toText b = some (intNumeral i) ∧
      ∀ post, toInt32 .strict (intNumeral i ++ 0 :: post) = some (i, 0 :: post) := by
  obtain ⟨b, e1, e2⟩ := writes_int k i (by omega)
  refine ⟨b, e1, e2, fun post => ?_⟩
  rw [intNumeral_eq, toInt32_small _ _ _ (FBld.decimalInt_ne_zero i) (by rw [intDigits_decimalInt, decVal_decimal]; exact hi),
    splitSign_decimalInt, intDigits_decimalInt, decVal_decimal, sign_natAbs, afterInt_decimalInt]
  rfl

example : toInt32 .strict (intNumeral (-2147483599) ++ 0 :: []) = some (-2147483599, [0]) ∧
    toInt32 .wrap (intNumeral (-2147483648) ++ 0 :: [7]) = some (-2147483648, [0, 7]) := by decide +kernel

/-- **C12, violated.** `val * 10 + c - '0'` adds the character before subtracting `'0'`, so reading back 2147483647 overflows an `int`,
which is undefined behaviour in standard C++. -/
theorem int32_overflow_violated : toInt32 .strict (intNumeral 2147483647 ++ [0]) = none ∧
    toInt32 .strict (intNumeral (-2147483648) ++ [0]) = none := by decide +kernel

/-- **C13, partial.** A byte written with `appendHex` is read back by `HexToUInt32` with a count of two, whatever text follows, and the
cursor is left after the two digits. Missing: integers of more than one byte, see `hex_multibyte_violated`. -/
theorem hex_roundtrip_partial (k n : Nat) (hn : n < 256) :
    ∃ b, FBld.appendHex8 (FBld.ofReserve k) n = some b ∧ FBld.toText b = some (FBld.hexPair n) ∧
      ∀ rest, hexToUInt32 (FBld.hexPair n ++ rest) 2 = some (n, rest) := by
  have h0 : Holds (FBld.ofReserve k) [] := by simpa [FBld.ofReserve] using FBld.reserve_holds FBld.holds_null k
  obtain ⟨b, e, hb⟩ := FBld.op_refines h0 (.hex8 n) hn
  have hb' : Holds b (FBld.hexPair n) := by simpa [FBld.Op.spec] using hb
  obtain ⟨a1, a2, a3, a4, a5, a6⟩ := hex_byte_table ⟨n, hn⟩
  have hp := FBld.hexDigit_table ⟨n, hn⟩
  simp only at a1 a2 a3 a4 a5 a6 hp
  refine ⟨b, e, ?_, ?_⟩
  · obtain ⟨v', j, e', h1, _⟩ := FBld.toCharPtr_holds hb'
    unfold FBld.toText
    rw [e', Option.bind_some, h1]
    refine FBld.textAt_of _ ?_ j
    rw [← hp]
    intro h
    simp at h
    rcases h with h | h
    · exact a3 h.symm
    · exact a4 h.symm
  · intro rest
    rw [← hp]
    unfold hexToUInt32
    have hs : ∀ x y : Ch, y ≠ 120 → y ≠ 88 → skip0x (x :: y :: rest) = some (x :: y :: rest) := by
      intro x y h1 h2
      simp [skip0x, deref, h1, h2]
    show (deref (_ :: _ :: rest)).bind _ = _
    rw [show ∀ x y : Ch, deref (x :: y :: rest) = some x from fun _ _ => rfl, Option.bind_some, if_neg a3]
    show (skip0x (_ :: _ :: rest)).bind _ = _
    rw [hs _ _ a5 a6, Option.bind_some]
    simp only [hexLoop, if_neg a3, if_neg a4, a1, a2]
    congr 2
    omega

example : hexToUInt32 (FBld.hexPair 0x5A ++ [70, 70, 0]) 2 = some (0x5A, [70, 70, 0]) := by decide +kernel

/-- **C13, violated.** Integers of two or more bytes are written lowest byte first: the `uint16` 256 is written "0001" and reads back
as 1. -/
theorem hex_multibyte_violated :
    (FBld.appendHexT (FBld.ofReserve 32) 256 2).bind FBld.toText = some [48, 48, 48, 49] ∧
    hexToUInt32 [48, 48, 48, 49, 0] 4 = some (1, [0]) := by decide +kernel

/-! ## lists -/

/-- **C14, round trip.** Any list of `int32` written by the builder reads back as the same list, whatever the target array held before
and whatever follows the text (with wrap-around `int` arithmetic; for the strict reading see `int32_roundtrip_partial`). -/
theorem int_list_roundtrip (k : Nat) (xs : List Int) (hx : ∀ x ∈ xs, -2 ^ 31 ≤ x ∧ x < 2 ^ 31) (old : List Int) :
    ∃ b txt, writeInts (FBld.ofReserve k) xs = some b ∧ FBld.toText b = some txt ∧
      ∀ post, toList (toInt32 .wrap) 0 (txt ++ 0 :: post) old = some xs := by
  obtain ⟨b, e, hb⟩ := writeInts_holds _ (ofReserve_holds k) xs
  obtain ⟨h0, h13, ht⟩ := joined_ok xs
  refine ⟨b, _, e, toText_of_holds hb h0, fun post => ?_⟩
  rw [toList_eq readsToken_i_wrap 0 _ post old h0 h13 (joined_lead xs), ht, List.map_map]
  congr 1
  conv => rhs; rw [← List.map_id xs]
  apply List.map_congr_left
  intro x hm
  show Int.bmod (tokInt (FBld.decimalInt x)) (2 ^ 32) = x
  rw [tokInt_decimalInt, Int.bmod_eq_of_le (by have := hx x hm; omega) (by have := hx x hm; omega)]

/-- **C14, round trip** for `uint32` lists. -/
theorem uint_list_roundtrip (k : Nat) (xs : List Nat) (hx : ∀ x ∈ xs, x < 2 ^ 32) (old : List Nat) :
    ∃ b txt, writeUInts (FBld.ofReserve k) (xs.map (fun x : Nat => (x : Int))) = some b ∧ FBld.toText b = some txt ∧
      ∀ post, toList toUInt32 0 (txt ++ 0 :: post) old = some xs := by
  have hw : ∀ b l (x : Int), Holds b l → ∃ b', writeU b x = some b' ∧ Holds b' (l ++ FBld.decimal (x.toNat % 2 ^ 32)) :=
    fun b l x h => FBld.appendTerm_holds h _ (FBld.decimal_ne_zero _)
  have h0 := ofReserve_holds k
  have key : ∃ b, writeUInts (FBld.ofReserve k) (xs.map (fun x : Nat => (x : Int))) = some b ∧
      Holds b (joined ((xs.map (fun x : Nat => (x : Int))).map fun x => FBld.decimal (x.toNat % 2 ^ 32))) := by
    cases xs with
    | nil => exact ⟨_, rfl, h0⟩
    | cons x xs =>
      have hs : (FBld.ofReserve k).size = 0 := by obtain ⟨_, _, h2⟩ := h0; simpa using h2
      obtain ⟨b1, e1, h1⟩ := hw _ [] x h0
      obtain ⟨b2, e2, h2⟩ := writeRest_holds writeU (fun x => FBld.decimal (x.toNat % 2 ^ 32)) hw (xs.map (fun x : Nat => (x : Int))) b1 [] x h1
      refine ⟨b2, ?_, by simpa using h2⟩
      rw [List.map_cons]
      simp only [writeUInts, hs, if_true, e1, Option.bind_some, e2]
  obtain ⟨b, e, hb⟩ := key
  have hm : ((xs.map (fun x : Nat => (x : Int))).map fun x => FBld.decimal (x.toNat % 2 ^ 32)) =
      (xs.map (fun x : Nat => (x : Int))).map FBld.decimalInt := by
    rw [List.map_map, List.map_map]
    apply List.map_congr_left
    intro x hm
    have := hx x hm
    show FBld.decimal (((x : Int)).toNat % 2 ^ 32) = FBld.decimalInt (x : Int)
    unfold FBld.decimalInt
    rw [if_neg (by omega), Int.toNat_natCast, Nat.mod_eq_of_lt this, Int.natAbs_natCast]
  rw [hm] at hb
  obtain ⟨h0', h13, ht⟩ := joined_ok (xs.map (fun x : Nat => (x : Int)))
  refine ⟨b, _, e, toText_of_holds hb h0', fun post => ?_⟩
  rw [toList_eq readsToken_u 0 _ post old h0' h13 (joined_lead _), ht, List.map_map, List.map_map]
  congr 1
  conv => rhs; rw [← List.map_id xs]
  apply List.map_congr_left
  intro x hm
  show tokNat (FBld.decimalInt (x : Int)) % 2 ^ 32 = x
  have : FBld.decimalInt (x : Int) = FBld.decimal x := by
    unfold FBld.decimalInt; rw [if_neg (by omega), Int.natAbs_natCast]
  rw [this, tokNat_decimal, Nat.mod_eq_of_lt (hx x hm)]

example : toList (toInt32 .wrap) 0 [49, 50, 32, 45, 51, 32, 52, 0] [9, 9, 9, 9, 9] = some [12, -3, 4] := by decide +kernel

/-- **C14, partial: one number per token.** For a text without carriage returns that is empty or has a token, the lists read hold exactly
the numbers of its tokens, in order. Missing: texts with carriage returns and texts of blanks only, see the violations. -/
theorem list_tokens_partial (t post : List Ch) (h0 : 0 ∉ t) (h13 : 13 ∉ t) (ht : t = [] ∨ tokens t ≠ []) :
    (∀ old, toList toUInt32 0 (t ++ 0 :: post) old = some ((tokens t).map fun tok => tokNat tok % 2 ^ 32)) ∧
    ∀ old, toList (toInt32 .wrap) 0 (t ++ 0 :: post) old = some ((tokens t).map fun tok => Int.bmod (tokInt tok) (2 ^ 32)) :=
  ⟨fun old => toList_eq readsToken_u 0 t post old h0 h13 ht, fun old => toList_eq readsToken_i_wrap 0 t post old h0 h13 ht⟩

example : (0 : Ch) ∉ [32, 49, 9, 10, 50, 32] ∧ (13 : Ch) ∉ [32, 49, 9, 10, 50, 32] ∧ tokens [32, 49, 9, 10, 50, 32] = [[49], [50]] := by
  decide

/-- **C14, violated.** A carriage return does not end an integer, although it is skipped before one: "1\r2" holds two tokens but reads
as the single number 1. A text of blanks holds no token but reads as one zero. -/
theorem list_tokens_violated :
    tokens [49, 13, 50] = [[49], [50]] ∧ toList toUInt32 0 [49, 13, 50, 0] [] = some [1] ∧
    toList (toInt32 .wrap) 0 [49, 13, 50, 0] [] = some [1] ∧
    tokens [32] = [] ∧ toList toUInt32 0 [32, 0] [] = some [0] ∧ toList (toInt32 .wrap) 0 [32, 0] [] = some [0] := by
  decide +kernel

/-- **C60, partial.** `CountValues` counts the tokens of every text that does not start with a character above 127, and `ToBooleanList`
gives one boolean per token: false exactly for tokens starting with `0`, `f` or `F`. -/
theorem count_values_partial (t post : List Ch) (h0 : 0 ∉ t) :
    (0 < t.headD 0 ∨ t = [] → countValues (t ++ 0 :: post) = some (tokens t).length) ∧
    toBooleanList (t ++ 0 :: post) =
      some ((tokens t).map fun tok => !(tok.headD 0 = 48 || tok.headD 0 = 102 || tok.headD 0 = 70)) := by
  constructor
  · intro h
    rw [countValues_eq t post h0]
    rcases h with h | rfl
    · rw [if_pos h]
    · rfl
  · unfold toBooleanList
    rw [skipWhile_eq _ _ _ h0, Option.bind_some,
      boolLoop_eq _ _ _ _ (by simp) (notMem_of_suffix (List.dropWhile_suffix _) h0) (head_dropWhile _ _), tokens_dropWhile]
    simp

example : toBooleanList [32, 116, 32, 70, 13, 49, 0] = some [true, false, true] ∧ countValues [97, 13, 98, 0] = some 2 := by
  decide +kernel

/-- **C60, violated.** A text starting with a character above 127 is counted as empty. -/
theorem count_values_violated : countValues [-61, 32, 97, 0] = some 0 ∧ tokens [-61, 32, 97] = [[-61], [97]] := by decide +kernel

/-- **C15, partial.** The integer, hexadecimal and boolean parsers and the integer and boolean list parsers read every terminated text
without looking past its terminator: the result is the same whatever memory follows, also when none does, and cursors stay inside the
text. Missing: `ToFloat` and what is built on it, see `Verif/ConvFloatProps.lean`. -/
theorem parsers_stay_inside_partial (t : List Ch) (h0 : 0 ∉ t) :
    (∃ v t', t' <:+ t ∧ ∀ post, toUInt32 (t ++ 0 :: post) = some (v, t' ++ 0 :: post)) ∧
    (∃ v t', t' <:+ t ∧ ∀ post, toInt32 .wrap (t ++ 0 :: post) = some (v, t' ++ 0 :: post)) ∧
    (∀ count, ∃ v t', t' <:+ t ∧ ∀ post, hexToUInt32 (t ++ 0 :: post) count = some (v, t' ++ 0 :: post)) ∧
    (∀ old, ∃ l, ∀ post, toList toUInt32 0 (t ++ 0 :: post) old = some l) ∧
    (∀ old, ∃ l, ∀ post, toList (toInt32 .wrap) 0 (t ++ 0 :: post) old = some l) ∧
    (∃ l, ∀ post, toBooleanList (t ++ 0 :: post) = some l) ∧
    (∃ b, ∀ post, toBoolean (t ++ 0 :: post) = some b) ∧
    ∃ n, ∀ post, countValues (t ++ 0 :: post) = some n := by
  refine ⟨?_, ?_, fun count => hex_inside count t h0, fun old => toList_inside inside_u 0 t old h0 (by simp),
    fun old => toList_inside inside_i 0 t old h0 (by simp), ⟨_, fun post => (count_values_partial t post h0).2⟩, ?_,
    ⟨_, fun post => countValues_eq t post h0⟩⟩
  · obtain ⟨v, t', h1, _, h2⟩ := inside_u t h0 (by simp); exact ⟨v, t', h1, h2⟩
  · obtain ⟨v, t', h1, _, h2⟩ := inside_i t h0 (by simp); exact ⟨v, t', h1, h2⟩
  · exact ⟨_, fun post => by unfold toBoolean; rw [deref_eq, Option.map_some]⟩

example : (0 : Ch) ∉ [48, 120, 103, 45] ∧ hexToUInt32 ([48, 120] ++ [0]) 8 = some (0, [0]) := by decide +kernel

end Verif.FConv
