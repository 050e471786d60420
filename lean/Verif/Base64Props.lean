import Verif.Base64Aux
import Verif.Base64Lemmas

/-!
# Properties of Base64 encoding and decoding (C16, C17, C18)
-/

namespace Verif.Base64

/-- The longest input whose encoding has an `int` length. -/
def maxInput : Nat := 3 * (2 ^ 29 - 1)

/-- C17: the encoder's output is the RFC 4648 text, for every input whose sizes fit in `int`; no access leaves a buffer. -/
theorem encode_is_rfc4648 (bs : List Byte) (h : bs.length ≤ maxInput) : encode bs = some (rfcEncode bs) := by
  unfold maxInput at h
  unfold encode
  split
  · rename_i h0
    have : bs = [] := List.length_eq_zero_iff.1 h0
    simp [this, rfcEncode]
  · rename_i h0
    have hs : encodeSize bs.length = some (rfcEncode bs).length := by
      rw [rfcEncode_length, encodeSize, if_pos (by omega)]
      congr 1; split <;> omega
    rw [hs, Option.bind_some]
    have := encodeLoop_eq bs _ 0 rfl []
    simpa using this

/-- C17: length and shape of the text. -/
theorem encode_length (bs : List Byte) (h : bs.length ≤ maxInput) :
    ∃ t, encode bs = some t ∧ t.length = (bs.length + 2) / 3 * 4 :=
  ⟨_, encode_is_rfc4648 bs h, rfcEncode_length bs⟩

/-- "Man" is "TWFu", "Ma" is "TWE=", "M" is "TQ==". -/
example : rfcEncode [77#8, 97#8, 110#8] = [84#8, 87#8, 70#8, 117#8] ∧ rfcEncode [77#8, 97#8] = [84#8, 87#8, 69#8, 61#8] ∧
    rfcEncode [77#8] = [84#8, 81#8, 61#8, 61#8] := by decide +kernel

/-! ### The RFC specification is self-consistent -/

/-! ### Decoding -/

/-- C16: decoding the encoding gives back the same bytes, exactly. -/
theorem base64_roundtrip (bs : List Byte) (hne : bs ≠ []) (h : bs.length ≤ maxInput) :
    ∃ t, encode bs = some t ∧ decode t = some bs := by
  refine ⟨_, encode_is_rfc4648 bs h, ?_⟩
  have hacc := rfcEncode_accepted bs
  have hfilter : (rfcEncode bs).filter accepted = rfcEncode bs := List.filter_eq_self.2 hacc
  have hl := rfcEncode_length bs
  unfold maxInput at h
  obtain ⟨k, hk, h0⟩ := decode_wellformed (rfcEncode bs) bs (by omega) hne (by rw [hfilter]; exact rfc_roundtrip bs)
    (fun c hc => hacc c (List.mem_of_getLast? hc))
  rw [hk, h0 hfilter]; simp

/-- The hypotheses are met by a five-byte message. -/
example : ∃ t, encode [0#8, 255#8, 16#8, 3#8, 128#8] = some t ∧ decode t = some [0#8, 255#8, 16#8, 3#8, 128#8] :=
  base64_roundtrip _ (by simp) (by unfold maxInput; simp)

/-- C16, the empty sequence: the encoding is the empty text, and decoding the empty text is undefined behaviour. -/
theorem base64_roundtrip_empty_violated : encode [] = some [] ∧ decode [] = none := by
  constructor <;> rfl

/-- The six characters "TWFuTQ": a quartet and an unpadded half quartet. -/
def unpadded : List Byte := [84#8, 87#8, 70#8, 117#8, 84#8, 81#8]

/-- C18 is violated: text made of alphabet characters only, whose final group is not padded, is read past its end. -/
theorem base64_decode_safe_violated : ¬ ∀ t : List Byte, t ≠ [] → decode t ≠ none := by
  intro h
  refine h unpadded (by decide) ?_
  have hs : decodeSize unpadded = some 3 := by decide +kernel
  have hq : readQuartet unpadded 0 = some (84#8, 87#8, 70#8, 117#8, 4) := by
    simp [readQuartet, nextAccepted, unpadded, accepted]
  have hq2 : readQuartet unpadded 4 = none := by
    simp [readQuartet, nextAccepted, unpadded, accepted]
  have hd := decodeQuartet3 84#8 87#8 70#8 117#8 19 22 5 46 (by decide +kernel) (by decide +kernel) (by decide +kernel)
    (by decide +kernel) [] 0#8 0#8 0#8 []
  simp only [List.nil_append, List.length_nil] at hd
  unfold decode
  rw [if_neg (by decide), hs, Option.bind_some, if_neg (by decide), decodeLoop, if_pos (by decide)]
  split
  · rfl
  · rename_i heq
    rw [hq] at heq; cases heq
    rw [show List.replicate 3 0#8 = [0#8, 0#8, 0#8] from rfl, hd, Option.bind_some]
    simp only
    rw [decodeLoop, if_pos (by decide)]
    split
    · rfl
    · rename_i h2; rw [hq2] at h2; cases h2

/-- C18: reading fails whenever the input ends with an ignored character, such as a final line break. -/
theorem base64_trailing_blank_violated (t : List Byte) (c : Byte) (hc : accepted c = false) : decode (t ++ [c]) = none := by
  have key : ∀ k i out o, (t ++ [c]).length - i = k → i < (t ++ [c]).length → decodeLoop (t ++ [c]) out i o = none := by
    intro k
    induction k using Nat.strong_induction_on with
    | _ k ih =>
      intro i out o hk hi
      have hstay : ∀ i a j, nextAccepted (t ++ [c]) i = some (a, j) → j < (t ++ [c]).length := by
        intro i a j h
        fun_induction nextAccepted (t ++ [c]) i with
        | case1 i hl ha =>
          simp only [Option.some.injEq, Prod.mk.injEq] at h
          obtain ⟨_, rfl⟩ := h
          by_contra hcon
          have : i = t.length := by simp at hl hcon; omega
          subst this
          simp [hc] at ha
        | case2 i hl ha ih => exact ih h
        | case3 i hl => simp at h
      rw [decodeLoop, if_pos hi]
      split
      · rfl
      · rename_i a b c' d j hq
        have hgt := readQuartet_gt _ _ hq
        have hlt : j < (t ++ [c]).length := by
          simp only [readQuartet, Option.bind_eq_bind, Option.bind_eq_some_iff, Prod.exists, Option.some.injEq, Prod.mk.injEq] at hq
          obtain ⟨_, _, h1, _, _, h2, _, _, h3, _, _, h4, _, _, _, _, rfl⟩ := hq
          exact hstay _ _ _ h4
        cases decodeQuartet a b c' d out o with
        | none => rfl
        | some p => exact ih _ (by omega) j p.1 _ rfl hlt
  unfold decode
  rw [if_neg (by simp)]
  cases decodeSize (t ++ [c]) with
  | none => rfl
  | some n =>
    simp only [Option.bind_some]
    split
    · rfl
    · exact key _ _ _ _ rfl (by simp)

/-- The hypothesis is met by a line break after valid text: "TWFu\n". -/
example : decode ([84#8, 87#8, 70#8, 117#8] ++ [10#8]) = none := base64_trailing_blank_violated _ _ (by decide)

/-- C18, the part that holds: text whose characters other than ignored ones are well formed, and that does not end with an
ignored character, is decoded without leaving either buffer. Missing: malformed text. -/
theorem base64_decode_safe_partial (t bs : List Byte) (hlen : t.length < 2 ^ 31) (hne : bs ≠ [])
    (hdec : rfcDecode (t.filter accepted) = some bs) (hlast : ∀ c ∈ t.getLast?, accepted c = true) :
    ∃ out, decode t = some out ∧ bs <+: out := by
  obtain ⟨k, h, _⟩ := decode_wellformed t bs hlen hne hdec hlast
  exact ⟨_, h, List.prefix_append _ _⟩

/-- "TW\nFu": a line break inside the text. -/
example : ∃ out, decode [84#8, 87#8, 10#8, 70#8, 117#8] = some out ∧ [77#8, 97#8, 110#8] <+: out :=
  base64_decode_safe_partial _ _ (by decide) (by simp) (by decide +kernel) (by decide)

end Verif.Base64
