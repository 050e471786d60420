import Verif.ConvMoreAux
import Verif.ConvMore
import Verif.ConvFloatProps
import Verif.StrSearchProps
import Mathlib.Data.List.TakeWhile
import Mathlib.Tactic.FinCases
import Mathlib.Data.Fintype.Basic

/-!
# C49, C63-C66: vectors, matrices, interleaved lists, date-times, name lists and targets as text
-/

namespace Verif.FConv

open Verif.FStr (Ch)

/-! ## several numbers in a row -/

/-- **C63: a list of floats.** Any list of finite floats written with single blanks (as by `ToString(builder, FloatList)` and the vector
and matrix variants) reads back entry by entry as the number shown. -/
theorem floats_roundtrip (ov : Ov) {fmt rnd} (hf : Formats fmt rnd) (qs : List ℚ) (old : List ℚ) :
    ∃ txt, spaced (fun q => floatText fmt (.fin q)) qs = some txt ∧ 0 ∉ txt ∧
      ∀ post, toList (toFloat ov) 0 (txt ++ 0 :: post) old = some (qs.map (shown rnd)) := by
  obtain ⟨Ls, h1, h2, h3⟩ := spaced_lits hf qs
  obtain ⟨a1, a2, a3⟩ := joined_lits Ls h1
  refine ⟨_, h3, a1, fun post => ?_⟩
  rw [float_list_partial ov _ post Ls h1 a3 a1 a2.1 _ old, h2]
  cases Ls with
  | nil => exact Or.inl rfl
  | cons L Ls => exact Or.inr (by simp)

/-- **C63: matrices.** A 4x4 matrix of finite floats written by `ToString` and read by `ToMatrix` has each entry in its place. -/
theorem matrix_roundtrip (ov : Ov) {fmt rnd} (hf : Formats fmt rnd) (m old : Mat) :
    ∃ txt, spaced (fun q => floatText fmt (.fin q)) (matEntries m) = some txt ∧ 0 ∉ txt ∧
      ∀ post, toMatrix ov (txt ++ 0 :: post) old = some (fun i j => shown rnd (m i j), 0 :: post) := by
  obtain ⟨Ls, h1, h2, h3⟩ := spaced_lits hf (matEntries m)
  obtain ⟨a1, a2, a3⟩ := joined_lits Ls h1
  have hlen : Ls.length = 16 := by
    have := congrArg List.length h2
    simpa [matEntries] using this
  have hne : Ls ≠ [] := by rintro rfl; simp at hlen
  refine ⟨_, h3, a1, fun post => ?_⟩
  unfold toMatrix
  rw [deref_eq, Option.bind_some, if_neg (headD_ne a1 (joined_ne_nil Ls h1 hne))]
  have := readFloats_joined ov Ls h1 hne post
  rw [hlen] at this
  rw [this, Option.map_some, h2]
  congr 2
  funext i j
  fin_cases i <;> fin_cases j <;> rfl

/-- **C63: vectors.** `ToVector2`, `ToVector3` and `ToVector4` read back the two, three or four components written. -/
theorem vector_roundtrip (ov : Ov) {fmt rnd} (hf : Formats fmt rnd) (v : List ℚ) (hv : v.length = 2 ∨ v.length = 3 ∨ v.length = 4) :
    ∃ txt, spaced (fun q => floatText fmt (.fin q)) v = some txt ∧ 0 ∉ txt ∧ ∀ post,
      (v.length ≠ 4 → toVector ov v.length (txt ++ 0 :: post) = some (v.map (shown rnd), 0 :: post)) ∧
      (v.length = 4 → toVector4 ov (txt ++ 0 :: post) = some (v.map (shown rnd), 0 :: post)) ∧
      (v.length = 3 → toVector4 ov (txt ++ 0 :: post) = some (v.map (shown rnd) ++ [1], 0 :: post)) := by
  obtain ⟨Ls, h1, h2, h3⟩ := spaced_lits hf v
  obtain ⟨a1, a2, a3⟩ := joined_lits Ls h1
  have hlen : Ls.length = v.length := by
    have := congrArg List.length h2
    simpa using this
  have hne : Ls ≠ [] := by rintro rfl; simp at hlen; omega
  have hhead := headD_ne a1 (joined_ne_nil Ls h1 hne)
  refine ⟨_, h3, a1, fun post => ⟨fun _ => ?_, fun h4 => ?_, fun h4 => ?_⟩⟩
  · unfold toVector
    rw [deref_eq, Option.bind_some, if_neg hhead, ← hlen, readFloats_joined ov Ls h1 hne, h2]
  · unfold toVector4
    rw [deref_eq, Option.bind_some, if_neg hhead]
    obtain ⟨t', b1, b2, b3, b4, b5, b6, b7⟩ := readFloats_eq ov 3 _ a1 a2 (Or.inr (by rw [a3]; simpa using hne))
    obtain ⟨t'', c1, c2, c3, c4, c5, c6, c7⟩ := readFloats_eq ov 1 t' b3 b4 b2
    have ht' : t' ≠ [] := by
      rintro rfl
      have := congrArg List.length b1
      rw [a3] at this
      simp [tokens, tokensFrom] at this
      omega
    have hr := c7 post
    have hfull := readFloats_joined ov Ls h1 hne post
    have ht'' : t'' = [] := by
      apply c2.resolve_right
      intro h
      apply h
      rw [c1, b1, a3]
      simp; omega
    rw [b7 post, Option.bind_some]
    simp only
    rw [deref_eq, Option.bind_some, if_neg (headD_ne b3 ht')]
    rw [readFloats] at hr
    obtain ⟨r, hr1, hr2⟩ := Option.bind_eq_some_iff.1 hr
    rw [hr1, Option.map_some]
    simp only [readFloats, Option.map_some] at hr2
    have e1 : r.1 :: [] = ((tokens t').take 1).map (tokFloat ov) ++ List.replicate (1 - (tokens t').length) 0 := by
      injection hr2 with hr2
      exact congrArg Prod.fst hr2
    have e2 : r.2 = t'' ++ 0 :: post := by
      injection hr2 with hr2
      exact congrArg Prod.snd hr2
    rw [e1, e2, ht'', b1, a3, ← h2, ← tokens_values ov Ls h1]
    have hl : (Ls.map Lit.text).length = 4 := by simp [hlen, h4]
    generalize Ls.map Lit.text = l at hl
    match l, hl with
    | [a, b, c, d], _ => rfl
  · unfold toVector4
    rw [deref_eq, Option.bind_some, if_neg hhead]
    have := readFloats_joined ov Ls h1 hne post
    rw [hlen, h4] at this
    rw [this, Option.bind_some, h2]
    simp [deref]

/-- A formatting function that writes one exact decimal, to show that the hypotheses can be met: 3/2 for everything. -/
example : Formats (fun _ => [49, 46, 53]) (fun _ => 3 / 2) := by
  intro q _
  refine ⟨⟨false, [49], some [53], none⟩, ⟨by decide, by decide, by decide, ?_, ?_⟩, rfl, ?_⟩
  · intro F hF; cases hF; decide
  · intro x hx; cases hx
  · have h1 : decVal [49] = 1 := by decide
    have h2 : decVal [53] = 5 := by decide
    simp only [GText.value, fracVal, h1, h2]
    norm_num

/-! ## lists of vectors -/

/-- **C63, lists of vectors.** For `k` = 2 or 3, a text of literals without carriage returns whose number of tokens is a multiple of `k`
reads as the vectors of `k` consecutive numbers, in order, whatever the target held. -/
theorem vector_list_rows (ov : Ov) (k : Nat) (hk : 0 < k) (t post : List Ch) (rows : List (List Lit)) (h0 : 0 ∉ t) (h13 : 13 ∉ t)
    (hw : ∀ r ∈ rows, r.length = k ∧ ∀ L ∈ r, L.WF) (htok : tokens t = (rows.map (·.map Lit.text)).flatten)
    (ht : t = [] ∨ rows ≠ []) (old : List (List ℚ)) :
    toVecList (toVector ov k) (t ++ 0 :: post) old = some (rows.map (·.map Lit.value)) := by
  have hok : FloatOk t := by
    refine ⟨h13, fun tok hm => ?_⟩
    rw [htok] at hm
    obtain ⟨r, hr, hm⟩ := List.mem_flatten.1 hm
    obtain ⟨r', hr', rfl⟩ := List.mem_map.1 hr
    obtain ⟨L, hL, rfl⟩ := List.mem_map.1 hm
    exact ⟨L, (hw r' hr').2 L hL, rfl⟩
  rw [toVecList_eq (readsRow_v ov k hk) hk t post (rows.map (·.map Lit.text)) old h0 hok _ htok]
  · rw [List.map_map]
    congr 1
    apply List.map_congr_left
    intro r hr
    exact tokens_values ov r (hw r hr).2
  · intro r hr
    obtain ⟨r', hr', rfl⟩ := List.mem_map.1 hr
    simpa using (hw r' hr').1
  · refine ht.imp id fun h => ?_
    rw [htok]
    obtain ⟨r, rows', rfl⟩ := List.exists_cons_of_ne_nil h
    intro e
    have := congrArg List.length e
    have h2 := (hw r (by simp)).1
    rw [List.map_cons, List.flatten_cons, List.length_append, List.length_map, List.length_nil] at this
    omega

example : tokens [49, 32, 50, 10, 51, 32, 52] =
    ([[(⟨false, [49], none, none⟩ : Lit), ⟨false, [50], none, none⟩], [⟨false, [51], none, none⟩, ⟨false, [52], none, none⟩]].map
      (·.map Lit.text)).flatten := by decide

end Verif.FConv
