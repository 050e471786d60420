import Verif.StrSearchAux
import Verif.StrSearch
import Mathlib.Data.List.Infix

/-!
# Properties of the string searches (C09)

Specification: `First P off r` - `r` is the first position from `off` on where `P` holds, or `npos` when there is none; `Last` likewise.
-/

namespace Verif.FStr

/-- C09 (partial): for every positive (ASCII) character `find(c, offset)` returns the first position from `offset` on that
holds it and `rfind(c, offset)` the last, `npos` when there is none. Missing: characters with the high bit set, see `string_find_negative_violated`. -/
theorem string_find_char_partial (buf xs : List Ch) (h : IsBuf buf xs) (c : Ch) (hc : c > 0) (off : Nat) (ho : off < 2 ^ 63) :
    (∃ r, findChar buf c off = some r ∧ First (fun i => xs[i]? = some c) off r) ∧
    (∃ r, rfindChar buf c off = some r ∧ Last (fun i => xs[i]? = some c) off r) := by
  have hc0 : c ≠ 0 := Int.ne_of_gt hc
  refine ⟨⟨_, by rw [findChar, if_pos hc, if_pos ho], ?_⟩, ⟨_, by rw [rfindChar, if_pos hc, if_pos ho], ?_⟩⟩
  · exact scanFirst_first _ _ _ _ (fun k _ => h.char c hc0 k) (fun k hk => h.char_end c k hk)
  · exact scanLast_last _ _ off _ _ _ (fun k _ => h.char c hc0 k) (fun k hk => h.char_end c k hk) (Nat.le_refl _)
      (.inr ⟨rfl, fun k h1 h2 => by omega⟩)

example : IsBuf [97, 98, 97, 0] [97, 98, 97] ∧ findChar [97, 98, 97, 0] 97 1 = some 2 ∧ rfindChar [97, 98, 97, 0] 98 0 = some 1 := by
  refine ⟨.inl rfl, by decide +kernel, by decide +kernel⟩

/-- C09 is violated for the characters of UTF-8 sequences: `string("\xE9").find('\xE9')` is `npos`. -/
theorem string_find_negative_violated : IsBuf [-23, 0] [-23] ∧ findChar [-23, 0] (-23) 0 = some npos ∧
    ¬ First (fun i => [(-23 : Ch)][i]? = some (-23)) 0 npos := by
  refine ⟨.inl rfl, by decide +kernel, ?_⟩
  rintro (⟨-, h, -⟩ | ⟨-, h⟩)
  · simp [npos] at h
  · exact h 0 (Nat.le_refl _) rfl

/-- C09: for every non-empty text, `find(text, offset)` (text given as string or as characters) returns the first position from
`offset` on where the text occurs and `rfind(text, offset)` the last one; `npos` when there is none. -/
theorem string_find_text (buf xs pat : List Ch) (h : IsBuf buf xs) (hp : pat ≠ []) (h0 : (0 : Ch) ∉ pat) (off : Nat) (ho : off < 2 ^ 63) :
    (∃ r, findStr buf pat off = some r ∧ First (fun i => pat <+: xs.drop i) off r) ∧
    (∃ r, findText buf pat off = some r ∧ First (fun i => pat <+: xs.drop i) off r) ∧
    (∃ r, rfindStr buf pat off = some r ∧ Last (fun i => pat <+: xs.drop i) off r) ∧
    (∃ r, rfindText buf pat off = some r ∧ Last (fun i => pat <+: xs.drop i) off r) := by
  have hpos := List.length_pos_iff.2 hp
  have hlen := h.len
  have ht : ∀ k, k < buf.length - pat.length + 1 → (matchAt buf pat k = true ↔ pat <+: xs.drop k) := fun k _ => by
    rw [matchAt_iff buf pat k hp, h.pat h0]
  have never : ∀ off, ¬ (pat.length > 0 ∧ buf.length - 1 ≥ pat.length) → ∀ k, off ≤ k → ¬ pat <+: xs.drop k :=
    fun off hn k _ => pat_end hp k (by omega)
  have never' : ∀ off, ¬ (pat.length > 0 ∧ buf.length ≥ pat.length) → ∀ k, off ≤ k → ¬ pat <+: xs.drop k :=
    fun off hn k _ => pat_end hp k (by omega)
  have hf : ∀ k, buf.length - pat.length + 1 ≤ k → ¬ pat <+: xs.drop k := fun k hk => pat_end hp k (by omega)
  refine ⟨?_, ?_, ?_, ?_⟩
  · unfold findStr
    split
    · exact ⟨_, rfl, scanFirst_first _ _ _ _ ht hf⟩
    · next hn => exact ⟨_, rfl, .inr ⟨rfl, never off hn⟩⟩
  · unfold findText
    split
    · exact ⟨_, rfl, scanFirst_first _ _ _ _ ht hf⟩
    · next hn => exact ⟨_, rfl, .inr ⟨rfl, never' off hn⟩⟩
  · unfold rfindStr
    split
    · exact ⟨_, rfl, scanLast_last _ _ off _ _ _ ht hf (Nat.le_refl _) (.inr ⟨rfl, fun k h1 h2 => by omega⟩)⟩
    · next hn => exact ⟨_, rfl, .inr ⟨rfl, never off hn⟩⟩
  · unfold rfindText
    split
    · exact ⟨_, rfl, scanLast_last _ _ off _ _ _ ht hf (Nat.le_refl _) (.inr ⟨rfl, fun k h1 h2 => by omega⟩)⟩
    · next hn => exact ⟨_, rfl, .inr ⟨rfl, never' off hn⟩⟩

example : IsBuf [97, 98, 97, 98, 0] [97, 98, 97, 98] ∧ findStr [97, 98, 97, 98, 0] [97, 98] 1 = some 2 ∧
    rfindText [97, 98, 97, 98, 0] [97, 98] 0 = some 2 ∧ findText [97, 98, 97, 98, 0] [98, 98] 0 = some npos := by
  refine ⟨.inl rfl, by decide +kernel, by decide +kernel, by decide +kernel⟩

/-- C09 (partial): `find_first_of(set, offset)` returns the first position from `offset` on that holds a character of the set, for sets
no longer than the buffer. Missing: longer sets, see `string_find_first_of_violated`. -/
theorem string_find_first_of_partial (buf xs set : List Ch) (h : IsBuf buf xs) (hs : set ≠ []) (h0 : (0 : Ch) ∉ set)
    (hl : set.length ≤ buf.length) (off : Nat) (ho : off < 2 ^ 63) :
    ∃ r, findFirstOf buf set off = some r ∧ First (fun i => ∃ c ∈ set, xs[i]? = some c) off r := by
  refine ⟨_, by rw [findFirstOf, if_pos ⟨List.length_pos_iff.2 hs, hl⟩, if_pos ho], ?_⟩
  exact scanFirst_first _ _ _ _ (fun k _ => h.any h0 k) (fun k hk => by rintro ⟨c, -, hc⟩; exact h.char_end c k hk hc)

example : IsBuf [97, 47, 98, 0] [97, 47, 98] ∧ findFirstOf [97, 47, 98, 0] [92, 47] 0 = some 1 := ⟨.inl rfl, by decide +kernel⟩

/-- C09 is violated for long sets: `string("a").find_first_of("xyza")` is `npos`. -/
theorem string_find_first_of_violated : IsBuf [97, 0] [97] ∧ findFirstOf [97, 0] [120, 121, 122, 97] 0 = some npos ∧
    ¬ First (fun i => ∃ c ∈ [(120 : Ch), 121, 122, 97], [(97 : Ch)][i]? = some c) 0 npos := by
  refine ⟨.inl rfl, by decide +kernel, ?_⟩
  rintro (⟨-, ⟨c, hc, h⟩, -⟩ | ⟨-, h⟩)
  · simp [npos] at h
  · exact h 0 (Nat.le_refl _) ⟨97, by simp, rfl⟩

/-- C09 (partial): `find_last_of(set, offset)` with a set of one character returns the last position at most `length() - offset` that
holds it. Missing: larger sets, see `string_find_last_of_violated`. -/
theorem string_find_last_of_partial (xs : List Ch) (c : Ch) (hc : c ≠ 0) (off : Nat) (ho : off ≤ xs.length) (hx : xs.length < 2 ^ 63) :
    ∃ r, findLastOf (xs ++ [0]) [c] off = some r ∧
      ((r ≤ xs.length - off ∧ xs[r]? = some c ∧ ∀ i, r < i → i ≤ xs.length - off → ¬ xs[i]? = some c) ∨
       (r = npos ∧ ∀ i, i ≤ xs.length - off → ¬ xs[i]? = some c)) := by
  refine ⟨lastOfLoop (xs ++ [0]) [c] (xs.length - off) (xs.length - off), ?_, lastOfLoop_single _ xs (.inl rfl) c hc _⟩
  unfold findLastOf
  rw [if_pos (by simp), if_pos (by omega), if_pos (by simp; omega)]
  congr 2
  · simp; omega
  · simp

example : findLastOf [97, 47, 98, 47, 99, 0] [47] 0 = some 3 ∧ findLastOf [97, 47, 98, 47, 99, 0] [47] 3 = some 1 := by decide +kernel

/-- C09 is violated for larger sets: `string("a/b").find_last_of("/\\")` is 2, where there is no separator. -/
theorem string_find_last_of_violated : findLastOf [97, 47, 98, 0] [47, 92] 0 = some 2 ∧ ([97, 47, 98] : List Ch)[2]? = some 98 := by
  decide +kernel

/-- C09 is violated for offsets beyond the address range: `find(c, npos)` reads below the buffer. -/
theorem string_find_npos_violated (buf : List Ch) : findChar buf 97 npos = none := by
  rw [findChar, if_pos (by decide), if_neg (by decide)]

end Verif.FStr
