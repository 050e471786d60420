import Verif.Base64Spec
import Mathlib.Tactic.Ring
import Mathlib.Tactic.IntervalCases

/-! Helper lemmas for Base64. -/

namespace Verif.Base64

theorem poke_append (done l : List Byte) (k : Nat) (v : Byte) :
    poke (done ++ l) (done.length + k) v = (poke l k v).map (done ++ ·) := by
  unfold poke
  by_cases h : k < l.length
  · simp [h, List.set_append_right]
  · simp [h]

theorem poke0 (done tl : List Byte) (x v : Byte) : poke (done ++ x :: tl) done.length v = some (done ++ v :: tl) := by
  simp [poke]

theorem poke1 (done tl : List Byte) (x0 x v : Byte) :
    poke (done ++ x0 :: x :: tl) (done.length + 1) v = some (done ++ x0 :: v :: tl) := by
  rw [poke_append]; simp [poke]

theorem poke2 (done tl : List Byte) (x0 x1 x v : Byte) :
    poke (done ++ x0 :: x1 :: x :: tl) (done.length + 2) v = some (done ++ x0 :: x1 :: v :: tl) := by
  rw [poke_append]; simp [poke]

theorem poke3 (done tl : List Byte) (x0 x1 x2 x v : Byte) :
    poke (done ++ x0 :: x1 :: x2 :: x :: tl) (done.length + 3) v = some (done ++ x0 :: x1 :: x2 :: v :: tl) := by
  rw [poke_append]; simp [poke]

theorem alphabet_eq : alphabet = rfcAlphabet.map Char.toNat := by decide

theorem alphabet_get (v : Fin 64) : (alphabet[v.val]?).map (BitVec.ofNat 8) = some (digit v) := by
  revert v; decide +kernel

theorem mask_shift (w : BitVec 32) : (w &&& 0xfc000000#32) >>> 26 = w >>> 26 := by
  apply BitVec.eq_of_getLsbD_eq
  intro i hi
  simp only [BitVec.getLsbD_ushiftRight, BitVec.getLsbD_and]
  by_cases h : i < 6
  · have : ∀ j : Fin 6, (0xfc000000#32).getLsbD (26 + j.val) = true := by decide
    rw [this ⟨i, h⟩, Bool.and_true]
  · rw [BitVec.getLsbD_of_ge w (26 + i) (by omega)]; simp

theorem topSextet_eq (w : BitVec 32) (v : Fin 64) (h : w.toNat / 2 ^ 26 = v.val) : topSextet w = some (digit v) := by
  unfold topSextet
  rw [mask_shift, BitVec.toNat_ushiftRight, Nat.shiftRight_eq_div_pow, h, alphabet_get]

theorem word_toNat (a b c : Byte) : (word a b c).toNat = (a.toNat * 65536 + b.toNat * 256 + c.toNat) * 256 := by
  have := a.isLt; have := b.isLt; have := c.isLt
  simp only [word, BitVec.toNat_ofNat]; omega

theorem shl6 (w : BitVec 32) : (shl w).toNat = w.toNat * 64 % 2 ^ 32 := by
  rw [shl, BitVec.toNat_shiftLeft, Nat.shiftLeft_eq]

/-- The four digits produced by successive shifts of a word. -/
theorem sextets (w : BitVec 32) (n : Nat) (_ : n < 2 ^ 24) (hw : w.toNat = n * 256) :
    topSextet w = some (digit (sextet n 3)) ∧
    topSextet (shl w) = some (digit (sextet n 2)) ∧
    topSextet (shl (shl w)) = some (digit (sextet n 1)) ∧
    topSextet (shl (shl (shl w))) = some (digit (sextet n 0)) := by
  refine ⟨topSextet_eq _ _ ?_, topSextet_eq _ _ ?_, topSextet_eq _ _ ?_, topSextet_eq _ _ ?_⟩ <;>
    simp only [shl6, hw, sextet, Fin.val_ofNat] <;> omega

theorem emit_eq (out : List Byte) (o : Nat) (w : BitVec 32) (c : Byte) (h : topSextet w = some c) :
    emit out o w = poke out o c := by
  rw [emit, h]; rfl

theorem encodeWord_eq (w : BitVec 32) (n : Nat) (hn : n < 2 ^ 24) (hw : w.toNat = n * 256)
    (done : List Byte) (x0 x1 x2 x3 : Byte) (tl : List Byte) :
    encodeWord w 3 (done ++ x0 :: x1 :: x2 :: x3 :: tl) done.length = some (done ++
      digit (sextet n 3) :: digit (sextet n 2) :: digit (sextet n 1) :: digit (sextet n 0) :: tl) ∧
    encodeWord w 2 (done ++ x0 :: x1 :: x2 :: x3 :: tl) done.length = some (done ++
      digit (sextet n 3) :: digit (sextet n 2) :: digit (sextet n 1) :: 61#8 :: tl) ∧
    encodeWord w 1 (done ++ x0 :: x1 :: x2 :: x3 :: tl) done.length = some (done ++
      digit (sextet n 3) :: digit (sextet n 2) :: 61#8 :: 61#8 :: tl) := by
  obtain ⟨s0, s1, s2, s3⟩ := sextets w n hn hw
  generalize hw3 : shl (shl (shl w)) = w3 at *
  generalize hw2 : shl (shl w) = w2 at *
  generalize hw1 : shl w = w1 at *
  refine ⟨?_, ?_, ?_⟩
  · show (emit _ _ w).bind _ = _
    rw [emit_eq _ _ _ _ s0, poke0, Option.bind_some]
    simp only [hw1, hw2]
    show (emit _ _ w1).bind _ = _
    rw [emit_eq _ _ _ _ s1, poke1, Option.bind_some]
    show (emit _ _ w2).bind _ = _
    rw [emit_eq _ _ _ _ s2, poke2, Option.bind_some, hw3, emit_eq _ _ _ _ s3, poke3]
  · show (emit _ _ w).bind _ = _
    rw [emit_eq _ _ _ _ s0, poke0, Option.bind_some]
    simp only [hw1, hw2]
    show (emit _ _ w1).bind _ = _
    rw [emit_eq _ _ _ _ s1, poke1, Option.bind_some]
    show (emit _ _ w2).bind _ = _
    rw [emit_eq _ _ _ _ s2, poke2, Option.bind_some, poke3, pad]
  · show (emit _ _ w).bind _ = _
    rw [emit_eq _ _ _ _ s0, poke0, Option.bind_some]
    simp only [hw1]
    show (emit _ _ w1).bind _ = _
    rw [emit_eq _ _ _ _ s1, poke1, Option.bind_some]
    show (poke _ _ pad).bind _ = _
    rw [poke2, Option.bind_some, poke3, pad]

theorem zero_toNat : (0#8 : Byte).toNat = 0 := rfl

theorem encodeTriple3 (inp : List Byte) (i : Nat) (a b c : Byte) (r : List Byte) (h : inp.drop i = a :: b :: c :: r)
    (done : List Byte) (x0 x1 x2 x3 : Byte) (tl : List Byte) :
    encodeTriple inp i 3 (done ++ x0 :: x1 :: x2 :: x3 :: tl) done.length =
      some (done ++ (rfcEncode [a, b, c] ++ tl)) := by
  have e0 : inp[i]? = some a := by
    have := congrArg (·[0]?) h; simpa using this
  have e1 : inp[i + 1]? = some b := by
    have := congrArg (·[1]?) h; simpa using this
  have e2 : inp[i + 2]? = some c := by
    have := congrArg (·[2]?) h; simpa using this
  have := a.isLt; have := b.isLt; have := c.isLt
  have := (encodeWord_eq _ _ (by omega) (word_toNat a b c) done x0 x1 x2 x3 tl).1
  rw [encodeTriple, e0, Option.bind_some, if_pos (by omega), e1, Option.bind_some, if_pos (by omega), e2, Option.bind_some, this]
  rfl

theorem encodeTriple2 (inp : List Byte) (i : Nat) (a b : Byte) (h : inp.drop i = [a, b])
    (done : List Byte) (x0 x1 x2 x3 : Byte) (tl : List Byte) :
    encodeTriple inp i 2 (done ++ x0 :: x1 :: x2 :: x3 :: tl) done.length =
      some (done ++ (rfcEncode [a, b] ++ tl)) := by
  have e0 : inp[i]? = some a := by
    have := congrArg (·[0]?) h; simpa using this
  have e1 : inp[i + 1]? = some b := by
    have := congrArg (·[1]?) h; simpa using this
  have := a.isLt; have := b.isLt
  have := (encodeWord_eq (word a b 0#8) (a.toNat * 65536 + b.toNat * 256) (by omega)
    (by rw [word_toNat, zero_toNat, Nat.add_zero]) done x0 x1 x2 x3 tl).2.1
  rw [encodeTriple, e0, Option.bind_some, if_pos (by omega), e1, Option.bind_some, if_neg (by omega), Option.bind_some, this]
  rfl

theorem encodeTriple1 (inp : List Byte) (i : Nat) (a : Byte) (h : inp.drop i = [a])
    (done : List Byte) (x0 x1 x2 x3 : Byte) (tl : List Byte) :
    encodeTriple inp i 1 (done ++ x0 :: x1 :: x2 :: x3 :: tl) done.length =
      some (done ++ (rfcEncode [a] ++ tl)) := by
  have e0 : inp[i]? = some a := by
    have := congrArg (·[0]?) h; simpa using this
  have := a.isLt
  have := (encodeWord_eq (word a 0#8 0#8) (a.toNat * 65536) (by omega)
    (by rw [word_toNat, zero_toNat, Nat.zero_mul, Nat.add_zero]) done x0 x1 x2 x3 tl).2.2
  rw [encodeTriple, e0, Option.bind_some, if_neg (by omega), Option.bind_some, if_neg (by omega), Option.bind_some, this]
  rfl

theorem rfcEncode_length (bs : List Byte) : (rfcEncode bs).length = (bs.length + 2) / 3 * 4 := by
  fun_induction rfcEncode bs with
  | case1 a b c rest n ih => simp only [List.length_cons, ih]; omega
  | case2 a b n => simp
  | case3 a n => simp
  | case4 => simp

theorem encodeLoop_eq (inp : List Byte) (k : Nat) : ∀ (i : Nat), inp.length - i = k → ∀ (done : List Byte),
    encodeLoop inp (done ++ List.replicate (rfcEncode (inp.drop i)).length 0#8) i done.length =
      some (done ++ rfcEncode (inp.drop i)) := by
  induction k using Nat.strong_induction_on with
  | _ k ih =>
    intro i hk done
    unfold encodeLoop
    split
    · rename_i hi
      rcases hd : inp.drop i with _ | ⟨a, _ | ⟨b, _ | ⟨c, r⟩⟩⟩
      · have := congrArg List.length hd; simp at this; omega
      · have hl := congrArg List.length hd; simp at hl
        rw [if_pos (by omega), hl]
        have := encodeTriple1 inp i a hd done 0#8 0#8 0#8 0#8 []
        simpa [rfcEncode, List.replicate] using this
      · have hl := congrArg List.length hd; simp at hl
        rw [if_pos (by omega), hl]
        have := encodeTriple2 inp i a b hd done 0#8 0#8 0#8 0#8 []
        simpa [rfcEncode, List.replicate] using this
      · have hl := congrArg List.length hd; simp at hl
        rw [if_neg (by omega)]
        have hd3 : inp.drop (i + 3) = r := by
          rw [← List.drop_drop, hd]; rfl
        have h3 := encodeTriple3 inp i a b c r hd done 0#8 0#8 0#8 0#8 (List.replicate (rfcEncode r).length 0#8)
        have e : (rfcEncode (a :: b :: c :: r)).length = (rfcEncode r).length + 4 := by simp [rfcEncode]
        rw [e]
        rw [show List.replicate ((rfcEncode r).length + 4) 0#8 =
          0#8 :: 0#8 :: 0#8 :: 0#8 :: List.replicate (rfcEncode r).length 0#8 from rfl, h3, Option.bind_some]
        have := ih (inp.length - (i + 3)) (by omega) (i + 3) rfl (done ++ rfcEncode [a, b, c])
        rw [hd3] at this
        simpa [rfcEncode] using this
    · rename_i hi
      have : inp.drop i = [] := List.drop_eq_nil_of_le (by omega)
      simp [this, rfcEncode]

/-! ### Decoding -/

theorem nextAccepted_eq (inp : List Byte) (i : Nat) (a : Byte) (f : List Byte)
    (h : (inp.drop i).filter accepted = a :: f) :
    ∃ j, nextAccepted inp i = some (a, j) ∧ (inp.drop j).filter accepted = f ∧ j ≤ inp.length := by
  fun_induction nextAccepted inp i with
  | case1 i hl ha =>
    rw [List.drop_eq_getElem_cons hl, List.filter_cons, if_pos ha] at h
    injection h with h1 h2
    exact ⟨i + 1, by simp [h1], h2, hl⟩
  | case2 i hl ha ih =>
    rw [List.drop_eq_getElem_cons hl, List.filter_cons, if_neg ha] at h
    exact ih h
  | case3 i hl =>
    rw [List.drop_eq_nil_of_le (by omega)] at h; simp at h

theorem readQuartet_eq (inp : List Byte) (i : Nat) (a b c d : Byte) (f : List Byte)
    (h : (inp.drop i).filter accepted = a :: b :: c :: d :: f) :
    ∃ j, readQuartet inp i = some (a, b, c, d, j) ∧ (inp.drop j).filter accepted = f ∧ j ≤ inp.length := by
  obtain ⟨j1, e1, h1, _⟩ := nextAccepted_eq inp i a _ h
  obtain ⟨j2, e2, h2, _⟩ := nextAccepted_eq inp j1 b _ h1
  obtain ⟨j3, e3, h3, _⟩ := nextAccepted_eq inp j2 c _ h2
  obtain ⟨j4, e4, h4, l4⟩ := nextAccepted_eq inp j3 d _ h3
  exact ⟨j4, by simp [readQuartet, e1, e2, e3, e4], h4, l4⟩

theorem value_table : ∀ n : Fin 256, ∀ v, rfcValue (BitVec.ofFin n) = some v →
    dealphabet[n.val]? = some v ∧ v < 64 ∧ BitVec.ofFin n ≠ 61#8 ∧ accepted (BitVec.ofFin n) = true := by
  have : ∀ n : Fin 256, (match rfcValue (BitVec.ofFin n) with
    | none => true
    | some v => decide (dealphabet[n.val]? = some v ∧ v < 64 ∧ BitVec.ofFin n ≠ 61#8 ∧ accepted (BitVec.ofFin n) = true)) = true := by
    decide +kernel
  intro n v h
  have := this n
  rw [h] at this
  simpa using this

theorem value_spec (c : Byte) (v : Nat) (h : rfcValue c = some v) :
    dealphabet[c.toNat]? = some v ∧ v < 64 ∧ c ≠ 61#8 ∧ accepted c = true := value_table c.toFin v h

theorem value_digit (v : Fin 64) : rfcValue (digit v) = some v.val := by
  revert v; decide +kernel

theorem digit_accepted (v : Fin 64) : accepted (digit v) = true := by
  revert v; decide +kernel

theorem digit_ne_pad (v : Fin 64) : digit v ≠ 61#8 := by
  revert v; decide +kernel

theorem pushSextet_eq (w : BitVec 32) (c : Byte) (v m : Nat) (h : rfcValue c = some v) (hw : w.toNat = m * 64) (hm : m < 2 ^ 20) :
    ∃ w', pushSextet w c = some w' ∧ w'.toNat = (m * 64 + v) * 64 := by
  obtain ⟨hd, hv, -, -⟩ := value_spec c v h
  refine ⟨(w ||| BitVec.ofNat 32 v) <<< 6, by simp only [pushSextet, hd, Option.map_some], ?_⟩
  have ho : (w ||| BitVec.ofNat 32 v).toNat = m * 64 + v := by
    rw [BitVec.toNat_or, hw, BitVec.toNat_ofNat, Nat.mod_eq_of_lt (by omega)]
    have := Nat.two_pow_add_eq_or_of_lt (i := 6) (b := v) (by omega) m
    rw [Nat.mul_comm m 64]; exact this.symm
  rw [BitVec.toNat_shiftLeft, ho, Nat.shiftLeft_eq]
  omega

theorem byteOf_eq (w : BitVec 32) (k n : Nat) (h : w.toNat / 2 ^ (8 * k) % 256 = n % 256) : byteOf w k = BitVec.ofNat 8 n := by
  apply BitVec.eq_of_toNat_eq
  simp only [byteOf, BitVec.toNat_setWidth, BitVec.toNat_ushiftRight, Nat.shiftRight_eq_div_pow, BitVec.toNat_ofNat]
  exact h

theorem decodeQuartet3 (a b c d : Byte) (va vb vc vd : Nat) (ha : rfcValue a = some va) (hb : rfcValue b = some vb)
    (hc : rfcValue c = some vc) (hd : rfcValue d = some vd) (done : List Byte) (x0 x1 x2 : Byte) (tl : List Byte) :
    decodeQuartet a b c d (done ++ x0 :: x1 :: x2 :: tl) done.length =
      some (done ++ BitVec.ofNat 8 ((va * 64 ^ 3 + vb * 64 ^ 2 + vc * 64 + vd) / 65536) ::
        BitVec.ofNat 8 ((va * 64 ^ 3 + vb * 64 ^ 2 + vc * 64 + vd) / 256) ::
        BitVec.ofNat 8 (va * 64 ^ 3 + vb * 64 ^ 2 + vc * 64 + vd) :: tl, 3) := by
  have la := (value_spec _ _ ha).2.1
  have lb := (value_spec _ _ hb).2.1
  have lc := (value_spec _ _ hc).2.1
  have ld := (value_spec _ _ hd).2.1
  obtain ⟨w1, e1, h1⟩ := pushSextet_eq 0#32 a va 0 ha (by simp) (by omega)
  obtain ⟨w2, e2, h2⟩ := pushSextet_eq w1 b vb va hb (by simpa using h1) (by omega)
  obtain ⟨w3, e3, h3⟩ := pushSextet_eq w2 c vc _ hc h2 (by omega)
  obtain ⟨w4, e4, h4⟩ := pushSextet_eq w3 d vd _ hd h3 (by omega)
  have hnp : d ≠ pad := (value_spec _ _ hd).2.2.1
  have hs : (w4 <<< 2).toNat = (va * 64 ^ 3 + vb * 64 ^ 2 + vc * 64 + vd) * 256 := by
    rw [BitVec.toNat_shiftLeft, h4, Nat.shiftLeft_eq]; omega
  have b3 : byteOf (w4 <<< 2) 3 = BitVec.ofNat 8 ((va * 64 ^ 3 + vb * 64 ^ 2 + vc * 64 + vd) / 65536) :=
    byteOf_eq _ _ _ (by rw [hs]; omega)
  have b2 : byteOf (w4 <<< 2) 2 = BitVec.ofNat 8 ((va * 64 ^ 3 + vb * 64 ^ 2 + vc * 64 + vd) / 256) :=
    byteOf_eq _ _ _ (by rw [hs]; omega)
  have b1 : byteOf (w4 <<< 2) 1 = BitVec.ofNat 8 (va * 64 ^ 3 + vb * 64 ^ 2 + vc * 64 + vd) :=
    byteOf_eq _ _ _ (by rw [hs]; omega)
  simp only [decodeQuartet, if_neg hnp, e1, e2, e3, e4, b3, b2, b1, Option.bind_eq_bind, Option.bind_some, poke0, poke1, poke2]

theorem decodeQuartet2 (a b c : Byte) (va vb vc : Nat) (ha : rfcValue a = some va) (hb : rfcValue b = some vb)
    (hc : rfcValue c = some vc) (done : List Byte) (x0 x1 : Byte) (tl : List Byte) :
    decodeQuartet a b c 61#8 (done ++ x0 :: x1 :: tl) done.length =
      some (done ++ BitVec.ofNat 8 ((va * 64 ^ 3 + vb * 64 ^ 2 + vc * 64) / 65536) ::
        BitVec.ofNat 8 ((va * 64 ^ 3 + vb * 64 ^ 2 + vc * 64) / 256) :: tl, 2) := by
  have la := (value_spec _ _ ha).2.1
  have lb := (value_spec _ _ hb).2.1
  have lc := (value_spec _ _ hc).2.1
  obtain ⟨w1, e1, h1⟩ := pushSextet_eq 0#32 a va 0 ha (by simp) (by omega)
  obtain ⟨w2, e2, h2⟩ := pushSextet_eq w1 b vb va hb (by simpa using h1) (by omega)
  obtain ⟨w3, e3, h3⟩ := pushSextet_eq w2 c vc _ hc h2 (by omega)
  have hnp : c ≠ pad := (value_spec _ _ hc).2.2.1
  have hs : (w3 <<< 8).toNat = (va * 64 ^ 3 + vb * 64 ^ 2 + vc * 64) * 256 := by
    rw [BitVec.toNat_shiftLeft, h3, Nat.shiftLeft_eq]; omega
  have b3 : byteOf (w3 <<< 8) 3 = BitVec.ofNat 8 ((va * 64 ^ 3 + vb * 64 ^ 2 + vc * 64) / 65536) :=
    byteOf_eq _ _ _ (by rw [hs]; omega)
  have b2 : byteOf (w3 <<< 8) 2 = BitVec.ofNat 8 ((va * 64 ^ 3 + vb * 64 ^ 2 + vc * 64) / 256) :=
    byteOf_eq _ _ _ (by rw [hs]; omega)
  have hp : (61#8 : Byte) = pad := rfl
  simp only [decodeQuartet, if_pos hp, if_neg hnp, e1, e2, e3, b3, b2, Option.bind_eq_bind, Option.bind_some, poke0, poke1]

theorem decodeQuartet1 (a b : Byte) (va vb : Nat) (ha : rfcValue a = some va) (hb : rfcValue b = some vb)
    (done : List Byte) (x0 : Byte) (tl : List Byte) :
    decodeQuartet a b 61#8 61#8 (done ++ x0 :: tl) done.length =
      some (done ++ BitVec.ofNat 8 ((va * 64 ^ 3 + vb * 64 ^ 2) / 65536) :: tl, 1) := by
  have la := (value_spec _ _ ha).2.1
  have lb := (value_spec _ _ hb).2.1
  obtain ⟨w1, e1, h1⟩ := pushSextet_eq 0#32 a va 0 ha (by simp) (by omega)
  obtain ⟨w2, e2, h2⟩ := pushSextet_eq w1 b vb va hb (by simpa using h1) (by omega)
  have hs : (w2 <<< 14).toNat = ((va * 64 ^ 3 + vb * 64 ^ 2) * 256) % 2 ^ 32 := by
    rw [BitVec.toNat_shiftLeft, h2, Nat.shiftLeft_eq]; omega
  have b3 : byteOf (w2 <<< 14) 3 = BitVec.ofNat 8 ((va * 64 ^ 3 + vb * 64 ^ 2) / 65536) :=
    byteOf_eq _ _ _ (by rw [hs]; omega)
  have hp : (61#8 : Byte) = pad := rfl
  simp only [decodeQuartet, if_pos hp, e1, e2, b3, Option.bind_eq_bind, Option.bind_some, poke0]

/-- The decoding loop on text whose accepted characters from index `i` on are well formed. -/
theorem decodeLoop_eq (inp : List Byte) (hlast : ∀ c ∈ inp.getLast?, accepted c = true) :
    ∀ (f bs : List Byte), rfcDecode f = some bs → ∀ (i : Nat), i ≤ inp.length → (inp.drop i).filter accepted = f →
    ∀ (done out : List Byte), bs.length ≤ out.length →
      decodeLoop inp (done ++ out) i done.length = some (done ++ bs ++ out.drop bs.length) := by
  have hend : ∀ i, i ≤ inp.length → (inp.drop i).filter accepted = [] → i = inp.length := by
    intro i hi hf
    by_contra hne
    have hl : i < inp.length := by omega
    have hnil : inp ≠ [] := by intro h; simp [h] at hl
    have hm : inp.getLast hnil ∈ inp.drop i := by
      rw [← List.getLast_drop (i := i) (by simp; omega)]
      exact List.getLast_mem _
    have ha := hlast (inp.getLast hnil) (by rw [List.getLast?_eq_getLast_of_ne_nil hnil]; rfl)
    have := List.mem_filter.2 ⟨hm, ha⟩
    rw [hf] at this; simp at this
  have hstop : ∀ out, ∀ i, i = inp.length → ∀ o, decodeLoop inp out i o = some out := by
    intro out i hi o
    unfold decodeLoop; simp [hi]
  have hgo : ∀ out i o a b c d f, (inp.drop i).filter accepted = a :: b :: c :: d :: f →
      ∃ j, j ≤ inp.length ∧ (inp.drop j).filter accepted = f ∧
        decodeLoop inp out i o = (decodeQuartet a b c d out o).bind fun (out', n) => decodeLoop inp out' j (o + n) := by
    intro out i o a b c d f hf
    obtain ⟨j, e, h1, h2⟩ := readQuartet_eq inp i a b c d f hf
    refine ⟨j, h2, h1, ?_⟩
    have := (readQuartet_gt _ _ e).2
    rw [decodeLoop, if_pos this]
    split
    · rename_i h; rw [e] at h; cases h
    · rename_i h; rw [e] at h; cases h; rfl
  intro f
  fun_induction rfcDecode f with
  | case1 =>
    intro bs hbs i hi hf done out hlen
    simp at hbs
    subst hbs
    rw [hstop _ _ (hend i hi hf)]; simp
  | case2 a b d rest h =>
    intro bs hbs i hi hf done out hlen
    obtain ⟨rfl, rfl⟩ := h
    simp only [Option.bind_eq_bind, Option.bind_eq_some_iff, Option.some.injEq] at hbs
    obtain ⟨va, ha, vb, hb, rfl⟩ := hbs
    obtain ⟨x, out, rfl⟩ : ∃ x o, out = x :: o := by
      cases out with
      | nil => simp at hlen
      | cons x o => exact ⟨x, o, rfl⟩
    obtain ⟨j, hj, hf', e⟩ := hgo (done ++ x :: out) i done.length _ _ _ _ _ hf
    rw [e, decodeQuartet1 a b va vb ha hb, Option.bind_some]
    simp only
    rw [hstop _ _ (hend j hj hf')]; simp
  | case3 a b c d rest h hc =>
    intro bs hbs i hi hf done out hlen
    obtain ⟨rfl, rfl⟩ := h
    simp only [Option.bind_eq_bind, Option.bind_eq_some_iff, Option.some.injEq] at hbs
    obtain ⟨va, ha, vb, hb, vc, hc, rfl⟩ := hbs
    obtain ⟨x, y, out, rfl⟩ : ∃ x y o, out = x :: y :: o := by
      rcases out with _ | ⟨x, _ | ⟨y, o⟩⟩
      · simp at hlen
      · simp at hlen
      · exact ⟨x, y, o, rfl⟩
    obtain ⟨j, hj, hf', e⟩ := hgo (done ++ x :: y :: out) i done.length _ _ _ _ _ hf
    rw [e, decodeQuartet2 a b c va vb vc ha hb hc, Option.bind_some]
    simp only
    rw [hstop _ _ (hend j hj hf')]; simp
  | case4 a b c d rest h ih =>
    intro bs hbs i hi hf done out hlen
    simp only [Option.bind_eq_bind, Option.bind_eq_some_iff, Option.some.injEq] at hbs
    obtain ⟨va, ha, vb, hb, vc, hc, vd, hd, r, hr, rfl⟩ := hbs
    obtain ⟨x, y, z, out, rfl⟩ : ∃ x y z o, out = x :: y :: z :: o := by
      rcases out with _ | ⟨x, _ | ⟨y, _ | ⟨z, o⟩⟩⟩
      · simp at hlen
      · simp at hlen
      · simp at hlen
      · exact ⟨x, y, z, o, rfl⟩
    obtain ⟨j, hj, hf', e⟩ := hgo (done ++ x :: y :: z :: out) i done.length _ _ _ _ _ hf
    rw [e, decodeQuartet3 a b c d va vb vc vd ha hb hc hd, Option.bind_some]
    simp only
    generalize BitVec.ofNat 8 ((va * 64 ^ 3 + vb * 64 ^ 2 + vc * 64 + vd) / 65536) = u0
    generalize BitVec.ofNat 8 ((va * 64 ^ 3 + vb * 64 ^ 2 + vc * 64 + vd) / 256) = u1
    generalize BitVec.ofNat 8 (va * 64 ^ 3 + vb * 64 ^ 2 + vc * 64 + vd) = u2
    have := ih r hr j hj hf' (done ++ [u0, u1, u2]) out (by simpa using hlen)
    simpa using this
  | case5 f h1 h2 => intro bs hbs; simp at hbs

end Verif.Base64
