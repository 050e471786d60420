import Verif.Base64Lemmas

/-! # Lemmas for the properties in Base64Props -/

namespace Verif.Base64

theorem recombine (n : Nat) (h : n < 2 ^ 24) :
    (sextet n 3).val * 64 ^ 3 + (sextet n 2).val * 64 ^ 2 + (sextet n 1).val * 64 + (sextet n 0).val = n := by
  simp only [sextet, Fin.val_ofNat]; omega

theorem ofNat_byte (b : Byte) (n : Nat) (h : n % 256 = b.toNat) : BitVec.ofNat 8 n = b := by
  apply BitVec.eq_of_toNat_eq; rw [BitVec.toNat_ofNat]; exact h

theorem rfc_roundtrip (bs : List Byte) : rfcDecode (rfcEncode bs) = some bs := by
  fun_induction rfcEncode bs with
  | case1 a b c rest n ih =>
    have ha := a.isLt; have hb := b.isLt; have hc := c.isLt
    have hn : n = a.toNat * 65536 + b.toNat * 256 + c.toNat := rfl
    clear_value n
    have hr := recombine n (by omega)
    rw [rfcDecode, if_neg (by intro h; exact digit_ne_pad _ h.1)]
    simp only [value_digit, Option.bind_eq_bind, Option.bind_some, ih, hr, Option.some.injEq, List.cons.injEq, and_true]
    refine ⟨ofNat_byte _ _ (by omega), ofNat_byte _ _ (by omega), ofNat_byte _ _ (by omega)⟩
  | case2 a b n =>
    have ha := a.isLt; have hb := b.isLt
    have hn : n = a.toNat * 65536 + b.toNat * 256 := rfl
    clear_value n
    have hr := recombine n (by omega)
    have h0 : (sextet n 0).val = 0 := by simp only [sextet, Fin.val_ofNat]; omega
    rw [h0, Nat.add_zero] at hr
    rw [rfcDecode, if_pos ⟨rfl, rfl⟩, if_neg (digit_ne_pad _)]
    simp only [value_digit, Option.bind_eq_bind, Option.bind_some, hr, Option.some.injEq, List.cons.injEq, and_true]
    exact ⟨ofNat_byte _ _ (by omega), ofNat_byte _ _ (by omega)⟩
  | case3 a n =>
    have ha := a.isLt
    have hn : n = a.toNat * 65536 := rfl
    clear_value n
    have hr := recombine n (by omega)
    have h0 : (sextet n 0).val = 0 := by simp only [sextet, Fin.val_ofNat]; omega
    have h1 : (sextet n 1).val = 0 := by simp only [sextet, Fin.val_ofNat]; omega
    rw [h0, h1, Nat.add_zero] at hr
    rw [rfcDecode, if_pos ⟨rfl, rfl⟩, if_pos rfl]
    simp only [value_digit, Option.bind_eq_bind, Option.bind_some, hr, Option.some.injEq, List.cons.injEq, and_true]
    exact ofNat_byte _ _ (by omega)
  | case4 => rfl

theorem rfcEncode_accepted (bs : List Byte) : ∀ c ∈ rfcEncode bs, accepted c = true := by
  have hp : accepted 61#8 = true := by decide
  fun_induction rfcEncode bs with
  | case1 a b c rest n ih =>
    intro x hx
    simp only [List.mem_cons] at hx
    rcases hx with rfl | rfl | rfl | rfl | hx
    · exact digit_accepted _
    · exact digit_accepted _
    · exact digit_accepted _
    · exact digit_accepted _
    · exact ih x hx
  | case2 a b n =>
    intro x hx
    simp only [List.mem_cons, List.not_mem_nil, or_false] at hx
    rcases hx with rfl | rfl | rfl | rfl
    · exact digit_accepted _
    · exact digit_accepted _
    · exact digit_accepted _
    · exact hp
  | case3 a n =>
    intro x hx
    simp only [List.mem_cons, List.not_mem_nil, or_false] at hx
    rcases hx with rfl | rfl | rfl | rfl
    · exact digit_accepted _
    · exact digit_accepted _
    · exact hp
    · exact hp
  | case4 => intro x hx; simp at hx

/-- How many bytes a well-formed text decodes to, by its last two characters. -/
theorem rfcDecode_shape : ∀ (f bs : List Byte), rfcDecode f = some bs → f.length % 4 = 0 ∧
    (f.getLast? = some 61#8 → f.length ≥ 4 ∧ (bs.length = f.length / 4 * 3 - 1 ∨
      (f.dropLast.getLast? = some 61#8 ∧ bs.length = f.length / 4 * 3 - 2))) ∧
    (f.getLast? = some 61#8 → f.dropLast.getLast? = some 61#8 → bs.length = f.length / 4 * 3 - 2) ∧
    (f.getLast? ≠ some 61#8 → bs.length = f.length / 4 * 3) := by
  intro f
  fun_induction rfcDecode f with
  | case1 => intro bs h; simp at h; subst h; simp
  | case2 a b d rest h =>
    intro bs hbs
    obtain ⟨rfl, rfl⟩ := h
    simp only [Option.bind_eq_bind, Option.bind_eq_some_iff, Option.some.injEq] at hbs
    obtain ⟨va, ha, vb, hb, rfl⟩ := hbs
    simp
  | case3 a b c d rest h hc =>
    intro bs hbs
    obtain ⟨rfl, rfl⟩ := h
    simp only [Option.bind_eq_bind, Option.bind_eq_some_iff, Option.some.injEq] at hbs
    obtain ⟨va, ha, vb, hb, vc, hc', rfl⟩ := hbs
    simp [hc]
  | case4 a b c d rest h ih =>
    intro bs hbs
    simp only [Option.bind_eq_bind, Option.bind_eq_some_iff, Option.some.injEq] at hbs
    obtain ⟨va, ha, vb, hb, vc, hc, vd, hd, r, hr, rfl⟩ := hbs
    have hnd := (value_spec _ _ hd).2.2.1
    obtain ⟨h1, h2, h3, h4⟩ := ih r hr
    rcases rest with _ | ⟨x, rest⟩
    · simp at h4; simp [hnd, h4]
    · have e1 : (a :: b :: c :: d :: x :: rest).getLast? = (x :: rest).getLast? := by simp [List.getLast?_cons_cons]
      by_cases hl : (x :: rest).getLast? = some 61#8
      · have h2' := h2 hl
        have h3' := h3 hl
        obtain ⟨y, rest', rfl⟩ : ∃ y r', rest = y :: r' := by
          rcases rest with _ | ⟨y, r'⟩
          · simp at h2'
          · exact ⟨y, r', rfl⟩
        have e2 : (a :: b :: c :: d :: x :: y :: rest').dropLast.getLast? = (x :: y :: rest').dropLast.getLast? := by
          simp [List.getLast?_cons_cons]
        rw [e1, e2]
        simp only [List.length_cons] at *
        refine ⟨by omega, fun _ => ⟨by omega, ?_⟩, fun _ h => ?_, fun h => absurd hl h⟩
        · rcases h2'.2 with h | ⟨h, h'⟩
          · left; omega
          · right; exact ⟨h, by omega⟩
        · have := h3' h; omega
      · have h4' := h4 hl
        rw [e1]
        simp only [List.length_cons] at *
        refine ⟨by omega, fun h => absurd h hl, fun h => absurd h hl, fun _ => by omega⟩
  | case5 f h1 h2 => intro bs hbs; simp at hbs

/-- What decoding does with text that may contain ignored characters (line breaks, blanks): it yields the decoded bytes of
the remaining characters, followed by zero bytes because the output is sized from the raw length. -/
theorem decode_wellformed (t bs : List Byte) (hlen : t.length < 2 ^ 31) (hne : bs ≠ [])
    (hdec : rfcDecode (t.filter accepted) = some bs) (hlast : ∀ c ∈ t.getLast?, accepted c = true) :
    ∃ k, decode t = some (bs ++ List.replicate k 0#8) ∧ (t.filter accepted = t → k = 0) := by
  obtain ⟨s1, s2, s3, s4⟩ := rfcDecode_shape _ _ hdec
  have hle := List.length_filter_le accepted t
  have hbs : 0 < bs.length := List.length_pos_iff.2 hne
  obtain ⟨l, x, rfl⟩ : ∃ l x, t = l ++ [x] := by
    rcases List.eq_nil_or_concat t with rfl | ⟨l, x, rfl⟩
    · simp [rfcDecode] at hdec; exact absurd hdec hne
    · exact ⟨l, x, by simp⟩
  have hax : accepted x = true := hlast x (by simp)
  have hf : (l ++ [x]).filter accepted = l.filter accepted ++ [x] := by simp [hax]
  rw [hf] at s1 s2 s3 s4 hle
  simp only [List.getLast?_append, List.getLast?_singleton, Option.some_or, Option.some.injEq, List.dropLast_concat, List.length_append,
    List.length_singleton] at s1 s2 s3 s4 hle hlen
  -- the size computed from the raw text
  have hsize : ∃ n, decodeSize (l ++ [x]) = some n ∧ bs.length ≤ n ∧ ((l ++ [x]).filter accepted = l ++ [x] → n = bs.length) := by
    have hfe : (l ++ [x]).filter accepted = l ++ [x] → l.filter accepted = l := by
      intro h; rw [hf] at h; exact List.append_cancel_right h
    have e1 : (l ++ [x])[(l ++ [x]).length - 1]? = some x := by simp
    have e0 : (l ++ [x]).length = l.length + 1 := by simp
    unfold decodeSize
    rw [if_neg (by rw [e0]; omega), e1]
    simp only [Option.bind_eq_bind, Option.bind_some, e0, pad]
    by_cases hx : x = 61#8
    · rw [if_neg (by simpa using hx)]
      obtain ⟨h4, h2⟩ := s2 hx
      rw [if_neg (by omega)]
      obtain ⟨l', y, rfl⟩ : ∃ l' y, l = l' ++ [y] := by
        rcases List.eq_nil_or_concat l with rfl | ⟨l', y, rfl⟩
        · simp at h4
        · exact ⟨l', y, by simp⟩
      have e2 : (l' ++ [y] ++ [x])[(l' ++ [y]).length + 1 - 2]? = some y := by simp
      rw [e2, Option.bind_some]
      simp only [List.length_append, List.length_singleton] at *
      by_cases hy : y = 61#8
      · subst hy
        have hp : accepted 61#8 = true := by decide
        have h3 := s3 hx (by simp [hp])
        rw [if_pos rfl, if_neg (by omega)]
        refine ⟨_, rfl, by omega, fun h => ?_⟩
        have := congrArg List.length (hfe h)
        simp only [List.length_append, List.length_singleton] at this
        omega
      · rw [if_neg hy, if_neg (by omega)]
        refine ⟨_, rfl, ?_, fun h => ?_⟩
        · rcases h2 with h2 | ⟨_, h2⟩ <;> omega
        · have h' := hfe h
          have := congrArg List.length h'
          simp only [List.length_append, List.length_singleton] at this
          rcases h2 with h2 | ⟨h3, _⟩
          · omega
          · rw [h'] at h3; simp at h3; exact absurd h3 hy
    · rw [if_pos hx]
      have h4 := s4 (by simpa using hx)
      refine ⟨_, rfl, by omega, fun h => ?_⟩
      have := congrArg List.length (hfe h)
      omega
  obtain ⟨n, hn, hle', hex⟩ := hsize
  refine ⟨n - bs.length, ?_, fun h => by rw [hex h]; omega⟩
  unfold decode
  rw [if_neg (by simp), hn, Option.bind_some, if_neg (by omega)]
  have := decodeLoop_eq (l ++ [x]) hlast _ bs hdec 0 (by omega) (by simp) [] (List.replicate n 0#8) (by simpa using hle')
  simpa using this

theorem nextAccepted_none (inp : List Byte) (i : Nat) (h : (inp.drop i).filter accepted = []) : nextAccepted inp i = none := by
  fun_induction nextAccepted inp i with
  | case1 i hl ha => rw [List.drop_eq_getElem_cons hl, List.filter_cons, if_pos ha] at h; cases h
  | case2 i hl ha ih => rw [List.drop_eq_getElem_cons hl, List.filter_cons, if_neg ha] at h; exact ih h
  | case3 i hl => rfl

end Verif.Base64
