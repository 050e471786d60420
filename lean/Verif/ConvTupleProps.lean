import Verif.ConvTupleAux
import Verif.ConvMore
import Verif.ConvFloatProps
import Verif.StrSearchProps

/-!
# C49, C64-C66: interleaved lists, date-times, name lists and targets as text
-/

namespace Verif.FConv

open Verif.FStr (Ch)

/-! ## interleaved lists -/

/-- **C64, partial.** When the first array exists, the arrays that exist have equal lengths, each array becomes its column: the
numbers at its place in each complete tuple, in order. The tokens `rest` after the last complete tuple are dropped, provided there are at
least as many complete tuples as there were elements. Missing: other targets, and incomplete tuples over old elements, see the violations;
and carriage returns, as for C14. -/
theorem interleaved_partial (old : List (Option (List Nat))) (l0 : List Nat) (h1 : old.head? = some (some l0))
    (hn0 : ∀ a ∈ old, ∀ l ∈ a, l.length = l0.length) (rows : List (List (List Ch))) (rest : List (List Ch)) (t post : List Ch)
    (h0 : 0 ∉ t) (h13 : 13 ∉ t) (ht : t = [] ∨ tokens t ≠ []) (htok : tokens t = rows.flatten ++ rest)
    (hr : ∀ r ∈ rows, r.length = old.length) (hrest : rest.length < old.length) (hre : rest ≠ [] → l0.length ≤ rows.length) :
    toInterleaved toUInt32 0 (t ++ 0 :: post) old =
      some (old.mapIdx fun i a => a.map fun _ => rows.map fun r => tokNat (r.getD i []) % 2 ^ 32) := by
  rw [toInterleaved_eq 0 readsToken_u old l0 h1 hn0 rows rest t post h0 h13 ht htok hr hrest hre]
  congr 1
  apply List.ext_getElem
  · simp
  · intro i _ _
    simp only [List.getElem_mapIdx]
    congr 1
    funext _
    apply List.map_congr_left
    intro r _
    rcases Nat.lt_or_ge i r.length with h | h
    · simp [List.getD_eq_getElem?_getD, h]
    · simp [List.getD_eq_getElem?_getD, List.getElem?_eq_none (l := r) h, tokNat, decVal]

/-- **C64, partial: floats.** The same for `ToInterleavedFloatList` on decimal literals. -/
theorem interleaved_float_partial (ov : Ov) (old : List (Option (List ℚ))) (l0 : List ℚ) (h1 : old.head? = some (some l0))
    (hn0 : ∀ a ∈ old, ∀ l ∈ a, l.length = l0.length) (rows : List (List Lit)) (rest : List Lit) (t post : List Ch) (h0 : 0 ∉ t)
    (h13 : 13 ∉ t) (ht : t = [] ∨ tokens t ≠ []) (htok : tokens t = (rows.map (·.map Lit.text)).flatten ++ rest.map Lit.text)
    (hr : ∀ r ∈ rows, r.length = old.length ∧ ∀ L ∈ r, L.WF) (hw : ∀ L ∈ rest, L.WF) (hrest : rest.length < old.length)
    (hre : rest ≠ [] → l0.length ≤ rows.length) :
    toInterleaved (toFloat ov) 0 (t ++ 0 :: post) old =
      some (old.mapIdx fun i a => a.map fun _ => rows.map fun r => (r.map Lit.value).getD i 0) := by
  have hok : 13 ∉ t ∧ ∀ tok ∈ tokens t, ∃ L : Lit, L.WF ∧ tok = L.text := by
    refine ⟨h13, fun tok hm => ?_⟩
    rw [htok] at hm
    rcases List.mem_append.1 hm with hm | hm
    rotate_left
    · obtain ⟨L, hL, rfl⟩ := List.mem_map.1 hm
      exact ⟨L, hw L hL, rfl⟩
    obtain ⟨r, hr', hm⟩ := List.mem_flatten.1 hm
    obtain ⟨r', hr'', rfl⟩ := List.mem_map.1 hr'
    obtain ⟨L, hL, rfl⟩ := List.mem_map.1 hm
    exact ⟨L, (hr r' hr'').2 L hL, rfl⟩
  rw [toInterleaved_eq 0 (readsToken_f ov) old l0 h1 hn0 (rows.map (·.map Lit.text)) (rest.map Lit.text) t post h0 hok ht htok _
    (by simpa using hrest) (fun h => by simpa using hre (by simpa using h))]
  · congr 1
    apply List.ext_getElem
    · simp
    · intro i _ _
      simp only [List.getElem_mapIdx]
      congr 1
      funext _
      rw [List.map_map]
      apply List.map_congr_left
      intro r hm
      show ((r.map Lit.text).map (tokFloat ov)).getD i 0 = _
      have : (r.map Lit.text).map (tokFloat ov) = r.map Lit.value := by
        rw [List.map_map]
        apply List.map_congr_left
        intro L hL
        exact tokFloat_lit ov L ((hr r hm).2 L hL)
      rw [this]
  · intro r hm
    obtain ⟨r', hr', rfl⟩ := List.mem_map.1 hm
    simpa using (hr r' hr').1

example : toInterleaved toUInt32 0 [49, 32, 50, 32, 51, 32, 52, 32, 53, 32, 54, 0] [some [9], none, some [8]] =
    some [some [1, 4], none, some [3, 6]] ∧ tokens [49, 32, 50, 32, 51, 32, 52, 32, 53, 32, 54] =
      [[[49], [50], [51]], [[52], [53], [54]]].flatten := by decide +kernel

example : toInterleaved toUInt32 0 [49, 32, 50, 32, 51, 32, 52, 32, 53, 0] [some [9], some [8]] = some [some [1, 3], some [2, 4]] ∧
    tokens [49, 32, 50, 32, 51, 32, 52, 32, 53] = [[[49], [50]], [[51], [52]]].flatten ++ [[53]] := by decide +kernel

/-- **C64, violated.** An incomplete tuple that falls on elements already in the arrays is counted and leaves an old element behind; a NULL
first array is dereferenced; arrays of different lengths make the parser write outside the shorter one. -/
theorem interleaved_violated :
    toInterleaved toUInt32 0 [53, 0] [some [7], some [8]] = some [some [5], some [8]] ∧
    toInterleaved toUInt32 0 [49, 32, 50, 0] [none, some []] = none ∧
    toInterleaved toUInt32 0 [49, 32, 50, 0] [some [0], some []] = none := by decide +kernel

/-! ## date-times -/

/-- **C49.** A date-time with a year below 10000 and the other fields below 100 (so every valid date-time) is written as
`YYYY-MM-DDThh:mm:ssZ`, 20 characters, and reads back unchanged. -/
theorem datetime_roundtrip (x old : DateTime) (hy : x.year < 10000) (hmo : x.month < 100) (hd : x.day < 100) (hh : x.hour < 100)
    (hmi : x.minutes < 100) (hs : x.seconds < 100) :
    (dateText x).length = 20 ∧ ∀ post, toDateTime (dateText x ++ 0 :: post) old = some x := by
  obtain ⟨y, mo, d, h, mi, s⟩ := x
  simp only at hy hmo hd hh hmi hs
  have l4 := padded_length 4 y (by decide) hy
  have l1 := padded_length 2 mo (by decide) hmo
  have l2 := padded_length 2 d (by decide) hd
  have l3 := padded_length 2 h (by decide) hh
  have l5 := padded_length 2 mi (by decide) hmi
  have l6 := padded_length 2 s (by decide) hs
  have nz : ∀ w n, (0 : Ch) ∉ padded w n := fun w n h => (digit_cases (padded_digits w n 0 h)).1 rfl
  have ht : dateText ⟨y, mo, d, h, mi, s⟩ = padded 4 y ++ 45 :: (padded 2 mo ++ 45 :: (padded 2 d ++ 84 :: (padded 2 h ++ 58 ::
      (padded 2 mi ++ 58 :: (padded 2 s ++ [90]))))) := by
    unfold dateText
    rw [List.take_of_length_le (by simp [l4, l1, l2, l3, l5, l6])]
    simp
  have hlen : (dateText ⟨y, mo, d, h, mi, s⟩).length = 20 := by rw [ht]; simp [l4, l1, l2, l3, l5, l6]
  have hz : (0 : Ch) ∉ dateText ⟨y, mo, d, h, mi, s⟩ := by
    rw [ht]; simp [nz]
  refine ⟨hlen, fun post => ?_⟩
  unfold toDateTime
  rw [strlen_eq _ _ hz, Option.bind_some, if_pos hlen, ht]
  have e0 := uintAt_padded 4 y (by decide) hy (by decide) 45 (by decide) (padded 2 mo ++ 45 :: (padded 2 d ++ 84 :: (padded 2 h ++ 58 ::
      (padded 2 mi ++ 58 :: (padded 2 s ++ [90]))))) post (by simp [nz])
  have e1 := uintAt_padded 2 mo (by decide) hmo (by decide) 45 (by decide) (padded 2 d ++ 84 :: (padded 2 h ++ 58 ::
      (padded 2 mi ++ 58 :: (padded 2 s ++ [90])))) post (by simp [nz])
  have e2 := uintAt_padded 2 d (by decide) hd (by decide) 84 (by decide) (padded 2 h ++ 58 ::
      (padded 2 mi ++ 58 :: (padded 2 s ++ [90]))) post (by simp [nz])
  have e3 := uintAt_padded 2 h (by decide) hh (by decide) 58 (by decide) (padded 2 mi ++ 58 :: (padded 2 s ++ [90])) post (by simp [nz])
  have e4 := uintAt_padded 2 mi (by decide) hmi (by decide) 58 (by decide) (padded 2 s ++ [90]) post (by simp [nz])
  have e5 := uintAt_padded 2 s (by decide) hs (by decide) 90 (by decide) [] post (by simp)
  simp only [List.append_assoc, List.cons_append, List.nil_append] at e0 e1 e2 e3 e4 e5 ⊢
  rw [e0, Option.bind_some]
  simp only [List.drop_append, l4, l1, l2, l3, l5, l6, List.drop_succ_cons, List.drop_zero, Nat.reduceSub, List.drop_eq_nil_of_le,
    Nat.reduceLeDiff, List.nil_append]
  rw [e1, Option.bind_some, e2, Option.bind_some, e3, Option.bind_some, e4, Option.bind_some, e5, Option.map_some]

example : toDateTime (dateText ⟨2006, 2, 28, 23, 59, 5⟩ ++ [0]) ⟨1900, 1, 1, 0, 0, 0⟩ = some ⟨2006, 2, 28, 23, 59, 5⟩ := by decide +kernel

/-- **C49, violated beyond year 9999.** The text is cut at 20 characters and the fields are read one place off. -/
theorem datetime_violated :
    toDateTime (dateText ⟨10000, 12, 31, 23, 59, 58⟩ ++ [0]) ⟨1900, 1, 1, 0, 0, 0⟩ = some ⟨10000, 0, 0, 0, 0, 0⟩ ∧
    (dateText ⟨10000, 12, 31, 23, 59, 58⟩).length = 20 := by decide +kernel

/-- **C49.** A text of another length is ignored: the date-time keeps its value. -/
theorem datetime_other_length (t post : List Ch) (h0 : 0 ∉ t) (hl : t.length ≠ 20) (old : DateTime) :
    toDateTime (t ++ 0 :: post) old = some old := by
  unfold toDateTime
  rw [strlen_eq _ _ h0, Option.bind_some, if_neg hl]

example : toDateTime [50, 48, 48, 54, 0] ⟨1900, 1, 1, 0, 0, 0⟩ = some ⟨1900, 1, 1, 0, 0, 0⟩ := by decide +kernel

/-! ## name lists -/

/-- **C65, partial.** Into an empty array, `ToStringList` puts the blank separated words of the text, in order. Missing: arrays that
already hold elements. -/
theorem string_list_partial (t post : List Ch) (h0 : 0 ∉ t) : toStringList (t ++ 0 :: post) [] = some (tokens t) := by
  unfold toStringList
  rw [skipWhile_eq _ _ _ h0, Option.bind_some,
    nameLoop_eq _ _ _ _ (notMem_of_suffix (List.dropWhile_suffix _) h0) (by simp) (head_dropWhile _ _), tokens_dropWhile]
  rfl

example : toStringList [32, 97, 98, 10, 99, 0] [] = some [[97, 98], [99]] := by decide +kernel

/-- **C65, violated.** Reading into an array that holds elements appends each word to the old element instead of replacing it. -/
theorem string_list_violated : toStringList [97, 98, 0] [[120]] = some [[120, 97, 98]] := by decide +kernel

/-! ## targets -/

/-- **C66, partial.** A target of at least two characters is split before its first `(`, `[` or `.`: the two parts concatenate to the
target, the pointer holds none of the three characters and the qualifier is empty or starts with one of them. -/
theorem split_target_partial (t : List Ch) (hl : 2 ≤ t.length) (hmax : t.length < 2 ^ 63) :
    ∃ p q, splitTarget t = some (p, q) ∧ p ++ q = t ∧ (∀ c ∈ p, c ≠ 40 ∧ c ≠ 91 ∧ c ≠ 46) ∧
      (q = [] ∨ ∃ r, q = 40 :: r ∨ q = 91 :: r ∨ q = 46 :: r) := by
  obtain ⟨r, hr, hf⟩ := FStr.string_find_first_of_partial (t ++ [0]) t [40, 91, 46] (.inl rfl) (by simp) (by decide) (by simp; omega)
    0 (by decide)
  unfold splitTarget
  rw [hr, Option.map_some]
  rcases hf with ⟨h1, ⟨c, hc, hx⟩, h3⟩ | ⟨rfl, h3⟩
  · have hlt : r < t.length := by
      rcases Nat.lt_or_ge r t.length with h | h
      · exact h
      · rw [List.getElem?_eq_none (l := t) h] at hx; simp at hx
    have hnp : r ≠ FStr.npos := by unfold FStr.npos; omega
    rw [if_pos hnp]
    refine ⟨_, _, rfl, List.take_append_drop _ _, ?_, Or.inr ⟨t.drop (r + 1), ?_⟩⟩
    · intro d hd
      obtain ⟨i, hi, rfl⟩ := List.getElem_of_mem hd
      have hi' : i < r ∧ i < t.length := by rw [List.length_take] at hi; omega
      have := h3 i (Nat.zero_le _) hi'.1
      rw [List.getElem_take]
      have hn : ∀ c ∈ [(40 : Ch), 91, 46], t[i]'hi'.2 ≠ c := fun c hc e => this ⟨c, hc, by rw [List.getElem?_eq_getElem hi'.2, e]⟩
      exact ⟨hn 40 (by simp), hn 91 (by simp), hn 46 (by simp)⟩
    · rw [List.getElem?_eq_getElem hlt] at hx
      have hx := Option.some.inj hx
      rw [List.drop_eq_getElem_cons hlt, hx]
      simp only [List.mem_cons, List.not_mem_nil, or_false] at hc
      rcases hc with rfl | rfl | rfl <;> simp
  · rw [if_neg (by simp)]
    refine ⟨_, _, rfl, List.append_nil _, ?_, Or.inl rfl⟩
    intro d hd
    obtain ⟨i, hi, rfl⟩ := List.getElem_of_mem hd
    have hn : ∀ c ∈ [(40 : Ch), 91, 46], t[i] ≠ c := fun c hc e =>
      h3 i (Nat.zero_le _) ⟨c, hc, by rw [List.getElem?_eq_getElem hi, e]⟩
    exact ⟨hn 40 (by simp), hn 91 (by simp), hn 46 (by simp)⟩

example : splitTarget [116, 47, 120, 40, 51, 41, 46, 88] = some ([116, 47, 120], [40, 51, 41, 46, 88]) := by decide +kernel

/-- **C66, violated.** The one character targets `(`, `[` and `.` are taken as pointers, because the search gives up on texts shorter
than its set. -/
theorem split_target_violated : splitTarget [40] = some ([40], []) ∧ splitTarget [46] = some ([46], []) := by decide +kernel

/-- **C66.** The qualifier `(n)` or `[n]` gives its index, whatever follows the closing bracket. -/
theorem qualifier_index (ov : Ov) (o c : Ch) (ho : o = 40 ∨ o = 91) (hc : c = 41 ∨ c = 93) (n : Nat) (hn : n + 48 < 2 ^ 31)
    (rest post : List Ch) (h0 : 0 ∉ rest) : parseQualifier ov (o :: (FBld.decimal n ++ c :: rest) ++ 0 :: post) = some (n : Int) := by
  have hdig := decimal_digits n
  have hcd : digit c = false := by rcases hc with rfl | rfl <;> decide
  have hc0 : c ≠ 0 := by rcases hc with rfl | rfl <;> decide
  have hz : 0 ∉ FBld.decimal n ++ c :: rest := by
    intro h
    rcases List.mem_append.1 h with h | h
    · exact (digit_cases (hdig 0 h)).1 rfl
    · rcases List.mem_cons.1 h with h | h
      · exact hc0 h.symm
      · exact h0 h
  have hne : FBld.decimal n ≠ [] := by unfold FBld.decimal; split <;> simp
  unfold parseQualifier
  rw [List.cons_append, List.length_cons]
  unfold qualLoop
  simp only [deref, Option.bind_some, if_pos ho, List.drop_succ_cons, List.drop_zero]
  rw [skipWhile_eq _ _ _ hz, Option.bind_some, List.dropWhile_append_of_pos hdig, List.dropWhile_cons_of_neg (by simp [hcd])]
  simp only [List.cons_append, Option.bind_some, if_pos hc]
  have hd : (FBld.decimal n ++ c :: rest).dropWhile blank = FBld.decimal n ++ c :: rest := by
    apply dropWhile_of_neg
    obtain ⟨x, u, e⟩ := List.exists_cons_of_ne_nil hne
    intro y hy
    rw [e] at hy
    simp at hy; subst hy
    exact digit_not_blank (hdig x (by rw [e]; simp))
  have hs : splitSign (FBld.decimal n ++ c :: rest) = (1, FBld.decimal n ++ c :: rest) := by
    obtain ⟨x, u, e⟩ := List.exists_cons_of_ne_nil hne
    rw [e]
    have : x ≠ 45 := by
      have := hdig x (by rw [e]; simp)
      rintro rfl; exact absurd this (by decide)
    simp [splitSign, this]
  have hi : intDigits (FBld.decimal n ++ c :: rest) = FBld.decimal n := by
    unfold intDigits
    rw [hd, hs, List.takeWhile_append_of_pos hdig, List.takeWhile_cons_of_neg (by simp [hcd])]
    simp
  rw [show FBld.decimal n ++ c :: rest ++ 0 :: post = (FBld.decimal n ++ c :: rest) ++ 0 :: post from rfl] 
  rw [toInt32_small ov _ post hz (by rw [hi, decVal_decimal]; exact hn), Option.map_some, hd, hs, hi, decVal_decimal]
  simp

/-- **C66.** A text that does not start with `(` or `[` has no index. -/
theorem qualifier_none (ov : Ov) (t post : List Ch) (h : t.head? ≠ some 40 ∧ t.head? ≠ some 91) :
    parseQualifier ov (t ++ 0 :: post) = some (-1) := by
  unfold parseQualifier
  rw [List.length_append, List.length_cons, ← Nat.add_assoc]
  unfold qualLoop
  rw [deref_eq, Option.bind_some, if_neg]
  cases t with
  | nil => rintro (h | h) <;> exact absurd h (by decide)
  | cons c t => rintro (e | e) <;> simp at e <;> subst e <;> simp at h

example : parseQualifier .strict [40, 49, 50, 41, 46, 0] = some 12 ∧ parseQualifier .strict [46, 88, 0] = some (-1) := by decide +kernel

end Verif.FConv
