import Verif.Crc32Aux
import Verif.Crc32
import Mathlib.Logic.Function.Iterate

/-!
# Properties of the checksum (C19, C20)

Specification: the bit-serial CRC-32 register (reflected polynomial 0xEDB88320, the bit reversal of 0x04C11DB7), fed the bits
of each byte from the least significant one on, started at all ones and complemented at the end.
-/

namespace Verif.Crc32

/-- The standard CRC-32 of a bit string. -/
def crcOfBits (bs : List Bool) : BitVec 32 := feed 0xffffffff#32 bs ^^^ 0xffffffff#32

/-! ### Helper lemmas -/

/-! ### Properties -/

/-- C19: the checksum of a NUL-terminated text is the standard CRC-32 of its bytes, whatever follows the terminator;
nothing outside the table or the text is read. -/
theorem crc32_is_standard (t rest : List (BitVec 8)) (ht : ∀ c ∈ t, c ≠ 0#8) :
    crc32 (t ++ 0#8 :: rest) = some (crcOfBits (textBits t)) := by
  rw [crc32, loop_eq t ht]; rfl

/-- C19: "123456789" has the published check value 0xCBF43926. -/
example : crc32 [49#8, 50#8, 51#8, 52#8, 53#8, 54#8, 55#8, 56#8, 57#8, 0#8] = some 0xCBF43926#32 := by decide +kernel

/-- C19: every entry of the built-in table is what the generator computes. -/
theorem crc_table_generated : table.length = 256 ∧ ∀ i : Fin 256, table[i.val]? = some (genEntry i.val).toNat := by
  constructor
  · decide +kernel
  · decide +kernel

/-- C20, on bit strings: damage confined to a window of at most 32 bits changes the checksum. -/
theorem crc_detects_bit_burst (pre w w' post : List Bool) (hl : w.length = w'.length) (h32 : w.length ≤ 32) (hne : w ≠ w') :
    crcOfBits (pre ++ w ++ post) ≠ crcOfBits (pre ++ w' ++ post) := by
  intro h
  have hx : ∀ z : BitVec 32, z = z ^^^ 0xffffffff#32 ^^^ 0xffffffff#32 := by
    intro z; rw [BitVec.xor_assoc, BitVec.xor_self, BitVec.xor_zero]
  unfold crcOfBits at h
  have h := (hx _).trans ((congrArg (· ^^^ 0xffffffff#32) h).trans (hx _).symm)
  rw [feed_append _ (pre ++ w), feed_append _ (pre ++ w')] at h
  have h := feed_injective _ h
  rw [feed_append, feed_append, feed_eq _ _ h32, feed_eq w' _ (by omega), ← hl] at h
  have h := clock_injective.iterate _ h
  have e : ∀ a b : BitVec 32, b = a ^^^ (a ^^^ b) := by intro a b; rw [← BitVec.xor_assoc, BitVec.xor_self, BitVec.zero_xor]
  have h : pack w = pack w' := by rw [e (feed 0xffffffff#32 pre) (pack w), h, ← e]
  exact hne (pack_injective w w' hl h32 h)

/-- C20: two NUL-terminated texts whose bit strings differ only within 32 consecutive bits have different checksums. -/
theorem crc_detects_burst (t u : List (BitVec 8)) (rt ru : List (BitVec 8)) (ht : ∀ c ∈ t, c ≠ 0#8) (hu : ∀ c ∈ u, c ≠ 0#8)
    (pre w w' post : List Bool) (h1 : textBits t = pre ++ w ++ post) (h2 : textBits u = pre ++ w' ++ post)
    (hl : w.length = w'.length) (h32 : w.length ≤ 32) (hne : t ≠ u) :
    crc32 (t ++ 0#8 :: rt) ≠ crc32 (u ++ 0#8 :: ru) := by
  rw [crc32_is_standard t rt ht, crc32_is_standard u ru hu, h1, h2]
  intro h
  refine crc_detects_bit_burst pre w w' post hl h32 ?_ (Option.some.inj h)
  intro hw
  subst hw
  have inj : ∀ a b : List (BitVec 8), textBits a = textBits b → a = b := by
    intro a
    induction a with
    | nil =>
      intro b hb
      cases b with
      | nil => rfl
      | cons y b => simp [textBits, byteBits, List.range_succ] at hb
    | cons x a ih =>
      intro b hb
      cases b with
      | nil => simp [textBits, byteBits, List.range_succ] at hb
      | cons y b =>
        simp only [textBits, List.flatMap_cons] at hb
        have hlen : (byteBits x).length = (byteBits y).length := by simp [byteBits]
        obtain ⟨e1, e2⟩ := List.append_inj hb hlen
        rw [ih b e2]
        congr 1
        apply BitVec.eq_of_getLsbD_eq
        intro i hi
        have := congrArg (fun l => l[i]?) e1
        simpa [byteBits, hi] using this
  exact hne (inj t u (h1.trans h2.symm))

/-- C20: damage confined to four consecutive bytes. -/
theorem crc_detects_four_bytes (pre d d' post rt ru : List (BitVec 8)) (hl : d.length = d'.length) (h4 : d.length ≤ 4) (hne : d ≠ d')
    (ht : ∀ c ∈ pre ++ d ++ post, c ≠ 0#8) (hu : ∀ c ∈ pre ++ d' ++ post, c ≠ 0#8) :
    crc32 (pre ++ d ++ post ++ 0#8 :: rt) ≠ crc32 (pre ++ d' ++ post ++ 0#8 :: ru) := by
  have bl : ∀ x : List (BitVec 8), (textBits x).length = 8 * x.length := by
    intro x; induction x with
    | nil => rfl
    | cons a x ih => simp only [textBits, List.flatMap_cons, List.length_append] at *; simp [ih, byteBits]; omega
  have ba : ∀ x y : List (BitVec 8), textBits (x ++ y) = textBits x ++ textBits y := by intro x y; simp [textBits]
  exact crc_detects_burst _ _ rt ru ht hu (textBits pre) (textBits d) (textBits d') (textBits post) (by rw [ba, ba]) (by rw [ba, ba])
    (by rw [bl, bl, hl]) (by rw [bl]; omega) (by simpa using hne)

/-- "abcd" and "abXd". -/
example : crc32 ([97#8] ++ [98#8, 99#8] ++ [100#8] ++ 0#8 :: []) ≠ crc32 ([97#8] ++ [98#8, 88#8] ++ [100#8] ++ 0#8 :: []) :=
  crc_detects_four_bytes _ _ _ _ _ _ (by decide) (by decide) (by decide) (by decide) (by decide)

end Verif.Crc32
