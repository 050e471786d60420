import Verif.Crc32Spec
import Verif.Crc32
import Mathlib.Logic.Function.Iterate

/-! # Lemmas for the properties in Crc32Props -/

namespace Verif.Crc32

/-- The word whose bit `i` is the `i`-th message bit. -/
def pack : List Bool → BitVec 32
  | [] => 0#32
  | b :: bs => bitWord b ^^^ (pack bs <<< 1)

theorem bitWord_getLsbD (b : Bool) (i : Nat) : (bitWord b).getLsbD i = (b && decide (i = 0)) := by
  unfold bitWord
  cases b
  · simp
  · have : (1#32).getLsbD i = decide (i = 0) := by simp
    simp [this]

theorem pack_getLsbD (bs : List Bool) (i : Nat) (hi : i < 32) : (pack bs).getLsbD i = bs.getD i false := by
  induction bs generalizing i with
  | nil => simp [pack]
  | cons b bs ih =>
    rw [pack, BitVec.getLsbD_xor, bitWord_getLsbD, BitVec.getLsbD_shiftLeft]
    cases i with
    | zero => simp
    | succ i => simp [ih i (by omega), hi]

theorem pack_top (bs : List Bool) (h : bs.length ≤ 31) : (pack bs).getLsbD 31 = false := by
  rw [pack_getLsbD _ _ (by omega)]
  simp [List.getD, List.getElem?_eq_none h]

theorem clock_xor_shift (x y : BitVec 32) (h : y.getLsbD 31 = false) : clock (x ^^^ (y <<< 1)) = clock x ^^^ y := by
  have h0 : (x ^^^ (y <<< 1)).getLsbD 0 = x.getLsbD 0 := by simp
  unfold clock
  rw [h0]
  apply BitVec.eq_of_getLsbD_eq
  intro i hi
  simp only [BitVec.getLsbD_xor, BitVec.getLsbD_ushiftRight, BitVec.getLsbD_shiftLeft]
  have hy : (decide (1 + i < 32) && !decide (1 + i < 1) && y.getLsbD (1 + i - 1)) = y.getLsbD i := by
    by_cases h31 : i = 31
    · subst h31; rw [h]; rfl
    · have : 1 + i < 32 := by omega
      simp [this]
  rw [hy]
  cases x.getLsbD (1 + i) <;> cases y.getLsbD i <;> simp

theorem feed_eq (bs : List Bool) (c : BitVec 32) (h : bs.length ≤ 32) : feed c bs = clock^[bs.length] (c ^^^ pack bs) := by
  induction bs generalizing c with
  | nil => simp [feed, pack]
  | cons b bs ih =>
    simp only [List.length_cons] at h
    rw [feed, ih _ (by omega), List.length_cons, Function.iterate_succ_apply, pack, ← BitVec.xor_assoc,
      clock_xor_shift _ _ (pack_top bs (by omega))]

theorem feed_append (c : BitVec 32) (a b : List Bool) : feed c (a ++ b) = feed (feed c a) b := by
  induction a generalizing c with
  | nil => rfl
  | cons x a ih => exact ih _

theorem clock_injective : Function.Injective clock := by
  intro x y h
  have hbit : ∀ i, (clock x).getLsbD i = (clock y).getLsbD i := fun i => by rw [h]
  have e : ∀ z : BitVec 32, (clock z).getLsbD 31 = z.getLsbD 0 := by
    intro z
    unfold clock
    rw [BitVec.getLsbD_xor, BitVec.getLsbD_ushiftRight, BitVec.getLsbD_of_ge z (1 + 31) (by omega)]
    cases z.getLsbD 0 <;> rfl
  have h0 : x.getLsbD 0 = y.getLsbD 0 := by rw [← e, ← e, hbit]
  apply BitVec.eq_of_getLsbD_eq
  intro i hi
  cases i with
  | zero => exact h0
  | succ i =>
    have := hbit i
    unfold clock at this
    rw [h0, BitVec.getLsbD_xor, BitVec.getLsbD_xor] at this
    have := Bool.xor_left_inj.1 this
    simpa [BitVec.getLsbD_ushiftRight, Nat.add_comm] using this

theorem feed_injective (bs : List Bool) {c d : BitVec 32} (h : feed c bs = feed d bs) : c = d := by
  induction bs generalizing c d with
  | nil => exact h
  | cons b bs ih =>
    have := clock_injective (ih h)
    have e : ∀ z : BitVec 32, z = z ^^^ bitWord b ^^^ bitWord b := by intro z; rw [BitVec.xor_assoc, BitVec.xor_self, BitVec.xor_zero]
    rw [e c, e d, this]

theorem pack_injective (a b : List Bool) (hl : a.length = b.length) (h32 : a.length ≤ 32) (h : pack a = pack b) : a = b := by
  apply List.ext_getElem hl
  intro i h1 h2
  have := congrArg (fun w => w.getLsbD i) h
  simp only [pack_getLsbD _ _ (show i < 32 by omega)] at this
  simpa [List.getD, h1, h2] using this

theorem table_clock : ∀ n : Fin 256, table[n.val]? = some (clock^[8] (BitVec.ofNat 32 n.val)).toNat := by
  decide +kernel

/-- Eight clocks: the upper bytes move down, the low byte selects a table entry. -/
theorem clock8 (x : BitVec 32) : table[(x &&& 0xFF#32).toNat]?.map (fun t => (x >>> 8) ^^^ BitVec.ofNat 32 t) = some (clock^[8] x) := by
  have hand : (x &&& 0xFF#32).toNat = x.toNat % 256 := by
    rw [BitVec.toNat_and]; exact Nat.and_two_pow_sub_one_eq_mod x.toNat 8
  have hlt : x.toNat % 256 < 256 := Nat.mod_lt _ (by omega)
  have ht := table_clock ⟨x.toNat % 256, hlt⟩
  simp only at ht
  rw [hand, ht, Option.map_some, BitVec.ofNat_toNat, BitVec.setWidth_eq]
  congr 1
  -- x = low ^ (high << 8)
  have key : ∀ (k : Nat), k ≤ 8 → ∀ (z y : BitVec 32), y.toNat < 2 ^ 24 →
      clock^[k] (z ^^^ (y <<< 8)) = clock^[k] z ^^^ (y <<< (8 - k)) := by
    intro k
    induction k with
    | zero => intro _ z y _; simp
    | succ k ih =>
      intro hk z y hy
      rw [Function.iterate_succ_apply', Function.iterate_succ_apply', ih (by omega) z y hy]
      have e : y <<< (8 - k) = (y <<< (8 - (k + 1))) <<< 1 := by
        rw [← BitVec.shiftLeft_add]; congr 1; omega
      rw [e, clock_xor_shift]
      rw [BitVec.getLsbD_shiftLeft]
      have : y.getLsbD (31 - (8 - (k + 1))) = false := by
        rw [BitVec.getLsbD]
        exact Nat.testBit_lt_two_pow (Nat.lt_of_lt_of_le hy (Nat.pow_le_pow_right (by omega) (by omega)))
      rw [this, Bool.and_false]
  have hx : x = BitVec.ofNat 32 (x.toNat % 256) ^^^ ((x >>> 8) <<< 8) := by
    apply BitVec.eq_of_getLsbD_eq
    intro i hi
    rw [BitVec.getLsbD_xor, BitVec.getLsbD_shiftLeft, BitVec.getLsbD_ushiftRight, BitVec.getLsbD_ofNat]
    have : (x.toNat % 256).testBit i = (decide (i < 8) && x.getLsbD i) := by
      rw [show 256 = 2 ^ 8 from rfl, Nat.testBit_mod_two_pow]; rfl
    rw [this]
    by_cases h8 : i < 8
    · simp [h8, hi]
    · have : 8 + (i - 8) = i := by omega
      simp [h8, hi, this]
  have hy : (x >>> 8).toNat < 2 ^ 24 := by
    rw [BitVec.toNat_ushiftRight, Nat.shiftRight_eq_div_pow]; have := x.isLt; omega
  have := key 8 (by omega) (BitVec.ofNat 32 (x.toNat % 256)) (x >>> 8) hy
  rw [← hx] at this
  rw [this]
  simp [BitVec.xor_comm]

theorem pack_byteBits (c : BitVec 8) : pack (byteBits c) = c.setWidth 32 := by
  apply BitVec.eq_of_getLsbD_eq
  intro i hi
  rw [pack_getLsbD _ _ hi, BitVec.getLsbD_setWidth]
  by_cases h : i < 8
  · simp [byteBits, List.getD, h, hi]
  · simp [byteBits, List.getD, h, BitVec.getLsbD_of_ge c i (by omega)]

theorem step_eq (crc : BitVec 32) (c : BitVec 8) : step crc c = some (feed crc (byteBits c)) := by
  have hl : (byteBits c).length = 8 := by simp [byteBits]
  rw [feed_eq _ _ (by omega), hl, pack_byteBits, ← clock8, step]
  have h1 : (crc ^^^ c.setWidth 32) &&& 0xFF#32 = (crc &&& 0xFF#32) ^^^ c.setWidth 32 := by
    apply BitVec.eq_of_getLsbD_eq
    intro i hi
    simp only [BitVec.getLsbD_and, BitVec.getLsbD_xor, BitVec.getLsbD_setWidth]
    by_cases h : i < 8
    · have : ∀ j : Fin 8, (0xFF#32).getLsbD j.val = true := by decide
      rw [this ⟨i, h⟩]; simp
    · rw [BitVec.getLsbD_of_ge c i (by omega)]; simp
  have h2 : (crc ^^^ c.setWidth 32) >>> 8 = crc >>> 8 := by
    apply BitVec.eq_of_getLsbD_eq
    intro i hi
    simp only [BitVec.getLsbD_ushiftRight, BitVec.getLsbD_xor, BitVec.getLsbD_setWidth]
    rw [BitVec.getLsbD_of_ge c (8 + i) (by omega)]; simp
  rw [h1, h2]

theorem loop_eq (t : List (BitVec 8)) (ht : ∀ c ∈ t, c ≠ 0#8) (rest : List (BitVec 8)) (crc : BitVec 32) :
    loop crc (t ++ 0#8 :: rest) = some (feed crc (textBits t)) := by
  induction t generalizing crc with
  | nil => simp [loop, textBits, feed]
  | cons c t ih =>
    rw [List.cons_append, loop, if_neg (ht c (by simp)), step_eq, Option.bind_some, ih (fun x hx => ht x (by simp [hx]))]
    rw [textBits, textBits, List.flatMap_cons, feed_append]

end Verif.Crc32
