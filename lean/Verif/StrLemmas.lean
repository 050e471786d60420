import Verif.Str
import Verif.VecLemmas

/-! # Lemmas on the string model -/

namespace Verif.FStr

open Verif.FVec

/-- The string holds the text `l`; `b` tells whether it has a buffer (otherwise the text is empty). `none` in `l` is a character
whose value is not specified. -/
def Holds (v : Str) (l : List (Option Ch)) (b : Bool) : Prop :=
  (b = false ∧ l = [] ∧ Rep true v []) ∨ (b = true ∧ Rep true v (l ++ [some 0]))

theorem rep_sized {v : Str} {l} (h : Rep true v l) : v.sized = l.length := h.choose_spec.2.1

theorem rep_take {v : Str} {l} (h : Rep true v l) : v.buf.take v.sized = l := by
  obtain ⟨t, h1, h2, -⟩ := h
  rw [h1, h2]; simp

theorem Holds.length {v : Str} {l b} (h : Holds v l b) : length v = l.length := by
  rcases h with ⟨-, rfl, h⟩ | ⟨-, h⟩
  · have := rep_sized h; simp [FStr.length, this]
  · have := rep_sized h
    simp at this
    simp only [FStr.length, this]
    split <;> omega

theorem setBack_rep (v : Str) (l : List (Option Ch)) (x : Option Ch) (c : Ch) (h : Rep true v (l ++ [x])) :
    ∃ v', setBack v c = some v' ∧ Rep true v' (l ++ [some c]) := by
  obtain ⟨buf, s, k⟩ := v
  obtain ⟨t, h1, h2, -⟩ := h
  simp only [List.length_append, List.length_cons, List.length_nil] at h1 h2
  subst h1 h2
  refine ⟨⟨l ++ some c :: t, l.length + 1, k⟩, ?_, t, by simp, by simp, by simp⟩
  have := put_mid true l t x (some c) (l.length + 1) k l.length rfl
  simp only [setBack, Nat.succ_ne_zero, if_false, Nat.add_sub_cancel, List.append_assoc, List.cons_append, List.nil_append]
  simpa using this

theorem strlen_eq (xs r : List Ch) (h : (0 : Ch) ∉ xs) : strlen (xs ++ 0 :: r) = some xs.length := by
  induction xs with
  | nil => simp [strlen]
  | cons x xs ih =>
    simp only [List.mem_cons, not_or] at h
    simp [strlen, ih h.2, Ne.symm h.1]

theorem startsText_eq (xs r : List Ch) (h : (0 : Ch) ∉ xs) : startsText (xs ++ 0 :: r) = some (decide (xs ≠ [])) := by
  cases xs with
  | nil => simp [startsText]
  | cons x xs =>
    simp only [List.mem_cons, not_or] at h
    simp [startsText, Ne.symm h.1]

theorem exists_getLast {α : Type} (l : List α) (n : Nat) (h : l.length = n + 1) : ∃ i x, l = i ++ [x] ∧ i.length = n ∧ i = l.dropLast := by
  rcases List.eq_nil_or_concat l with rfl | ⟨i, x, rfl⟩
  · simp at h
  · exact ⟨i, x, by simp, by simpa using h, by simp⟩

theorem resize_holds (v : Str) (l : List (Option Ch)) (b : Bool) (h : Holds v l b) (n : Nat) :
    ∃ v' new, resize v n = some v' ∧ Rep true v' (l.take n ++ new ++ [some 0]) ∧ new.length = n - l.length := by
  have key : ∀ L : List (Option Ch), Rep true v L → ∃ v' new, resize v n = some v' ∧
      Rep true v' ((L.take (n + 1) ++ new).dropLast ++ [some 0]) ∧ new.length = n + 1 - L.length := by
    intro L hL
    obtain ⟨v1, new, e, h1, hn, -⟩ := FVec.resize_rep true 0 v L hL (n + 1)
    obtain ⟨i, x, hi, -, hd⟩ := exists_getLast (L.take (n + 1) ++ new) n (by simp; omega)
    rw [hi] at h1
    obtain ⟨v2, e2, h2⟩ := setBack_rep v1 i x 0 h1
    refine ⟨v2, new, by simp only [resize, e, Option.bind_some, e2], ?_, hn⟩
    rw [hi]; simpa using h2
  rcases h with ⟨-, rfl, h⟩ | ⟨-, h⟩
  · obtain ⟨v', new, e, hr, hn⟩ := key [] h
    refine ⟨v', new.dropLast, e, by simpa using hr, by simp at hn ⊢; omega⟩
  · obtain ⟨v', new, e, hr, hn⟩ := key _ h
    simp only [List.length_append, List.length_cons, List.length_nil] at hn
    by_cases hc : n ≤ l.length
    · have hnew : new = [] := List.eq_nil_of_length_eq_zero (by omega)
      refine ⟨v', [], e, ?_, by simp; omega⟩
      subst hnew
      have : (List.take (n + 1) (l ++ [some (0 : Ch)]) ++ []).dropLast = l.take n := by
        rw [List.append_nil, List.dropLast_eq_take, List.take_take, List.length_take]
        rw [List.length_append, List.length_cons, List.length_nil]
        rw [show min (min (n + 1) (l.length + (0 + 1)) - 1) (n + 1) = n by omega, List.take_append_of_le_length hc]
      rw [this] at hr
      simpa using hr
    · refine ⟨v', (some 0 :: new).dropLast, e, ?_, by simp; omega⟩
      rw [List.take_of_length_le (by simp; omega)] at hr
      rw [List.take_of_length_le (by omega)]
      have : (l ++ [some 0] ++ new).dropLast = l ++ (some 0 :: new).dropLast := by
        rw [List.append_assoc, List.cons_append, List.nil_append, List.dropLast_append_of_ne_nil (by simp)]
      rw [this] at hr
      exact hr

theorem spliceIn_rep (v : Str) (L new : List (Option Ch)) (z : Option Ch) (xs : List Ch) (off : Nat)
    (h : Rep true v (L ++ new ++ [z])) (hn : new.length = xs.length) (ho : off ≤ L.length) :
    ∃ v', spliceIn v L.length off xs = some v' ∧ Rep true v' (L.take off ++ xs.map some ++ L.drop off ++ [z]) := by
  obtain ⟨buf, s, k⟩ := v
  obtain ⟨t, h1, h2, -⟩ := h
  simp only at h1 h2
  subst h1
  unfold spliceIn
  -- after the move: the first `off` characters, some gap, the rest
  have mv : ∃ G, G.length = xs.length ∧
      (if off < L.length then memmove ⟨L ++ new ++ [z] ++ t, s, k⟩ (off + xs.length) off (L.length - off)
        else some ⟨L ++ new ++ [z] ++ t, s, k⟩) = some ⟨L.take off ++ (G ++ (L.drop off ++ ([z] ++ t))), s, k⟩ := by
    by_cases hc : off < L.length
    · rw [if_pos hc]
      refine ⟨((L.drop off ++ new).take xs.length), by simp; omega, ?_⟩
      unfold memmove
      rw [if_pos (by simp; omega)]
      congr 2
      have e1 : (L ++ new ++ [z] ++ t) = L.take off ++ (L.drop off ++ new) ++ ([z] ++ t) := by
        rw [← List.append_assoc (L.take off), List.take_append_drop]; simp
      have e2 : (L ++ new ++ [z] ++ t).drop (off + xs.length + (L.length - off)) = [z] ++ t := by
        rw [List.append_assoc]; apply List.drop_left'; simp; omega
      have e3 : ((L ++ new ++ [z] ++ t).drop off).take (L.length - off) = L.drop off := by
        rw [List.append_assoc, List.append_assoc, List.drop_append_of_le_length ho]
        apply List.take_left'; simp
      rw [e2, e3, ← List.append_assoc (L.take off)]
      congr 1
      rw [e1, List.append_assoc, List.take_append, List.length_take, Nat.min_eq_left ho,
        List.take_of_length_le (by simp; omega)]
      congr 1
      rw [show off + xs.length - off = xs.length by omega]
      apply List.take_append_of_le_length
      simp; omega
    · rw [if_neg hc]
      have : off = L.length := by omega
      subst this
      exact ⟨new, hn, by simp⟩
  obtain ⟨G, hG, e⟩ := mv
  rw [e, Option.bind_some]
  have := copyLoop_eq true s k xs (L.take off) G (L.drop off ++ ([z] ++ t)) off (by simp; omega) hG (by simp)
  refine ⟨_, this, t, by simp, ?_, by simp⟩
  simp only
  rw [h2]; simp; omega

theorem mapM_id_some (xs : List Ch) : (xs.map some).mapM id = some xs := by
  induction xs with
  | nil => rfl
  | cons x xs ih => simp [List.mapM_cons, ih]

theorem cells_eq (v : Str) (xs : List Ch) (h : Rep true v (xs.map some)) : cells v = some xs := by
  rw [cells, rep_take h, mapM_id_some]

theorem Holds.cells {v : Str} {xs : List Ch} {b} (h : Holds v (xs.map some) b) :
    cells v = some (if b then xs ++ [0] else []) := by
  rcases h with ⟨rfl, hl, h⟩ | ⟨rfl, h⟩
  · exact cells_eq v [] h
  · exact cells_eq v (xs ++ [0]) (by simpa using h)

theorem Holds.cStr {v : Str} {xs : List Ch} {b} (h : Holds v (xs.map some) b) : cStr v = some (xs ++ [0]) := by
  unfold FStr.cStr
  rcases h with ⟨rfl, hl, h⟩ | ⟨rfl, h⟩
  · have := rep_sized h
    simp at hl this
    simp [this, hl]
  · rw [if_neg (by rw [rep_sized h]; simp)]
    exact cells_eq v (xs ++ [0]) (by simpa using h)

theorem default_holds : ∃ v, default = some v ∧ Holds v [] true := by
  obtain ⟨v, e, h, -⟩ := insertOne_rep true (Vec.empty : Str) [] (rep_empty true) 0 (by simp) 0
  exact ⟨v, e, .inr ⟨rfl, by simpa using h⟩⟩

/-- Inserting the first `min xs.length n` characters of a text at `off`. -/
theorem insertText_holds (v : Str) (l : List (Option Ch)) (b : Bool) (h : Holds v l b) (off n : Nat) (xs r : List Ch) (hx : (0 : Ch) ∉ xs) :
    ∃ v', insertText v off (xs ++ 0 :: r) n = some v' ∧
      Holds v' (l.take off ++ (xs.take n).map some ++ l.drop off) (b || decide (xs ≠ [])) := by
  have hl := h.length
  unfold insertText
  rw [startsText_eq xs r hx, Option.bind_some]
  by_cases hxe : xs = []
  · subst hxe
    exact ⟨v, by simp, by simpa using h⟩
  · simp only [hxe, ne_eq, not_false_eq_true, decide_true, if_true, Bool.or_true]
    rw [strlen_eq xs r hx, Option.bind_some]
    obtain ⟨v1, new, e1, h1, hn⟩ := resize_holds v l b h (length v + min xs.length n)
    rw [e1, Option.bind_some]
    rw [List.take_of_length_le (by omega)] at h1
    have ht : (xs ++ 0 :: r).take (min xs.length n) = xs.take n := by
      rw [List.take_append_of_le_length (by omega)]
      by_cases hc : n ≤ xs.length
      · rw [Nat.min_eq_right hc]
      · rw [Nat.min_eq_left (by omega), List.take_length, List.take_of_length_le (by omega)]
    rw [ht, hl]
    obtain ⟨v2, e2, h2⟩ := spliceIn_rep v1 l new (some 0) (xs.take n) (min off l.length) h1 (by rw [hn]; simp; omega) (by omega)
    rw [e2, Option.bind_some]
    obtain ⟨v3, e3, h3⟩ := setBack_rep v2 _ _ 0 h2
    refine ⟨v3, e3, .inr ⟨rfl, ?_⟩⟩
    have t1 : l.take (min off l.length) = l.take off := by
      by_cases hc : off ≤ l.length
      · rw [Nat.min_eq_left hc]
      · rw [Nat.min_eq_right (by omega), List.take_length, List.take_of_length_le (by omega)]
    have t2 : l.drop (min off l.length) = l.drop off := by
      by_cases hc : off ≤ l.length
      · rw [Nat.min_eq_left hc]
      · rw [Nat.min_eq_right (by omega), List.drop_length, List.drop_eq_nil_of_le (by omega)]
    rw [t1, t2] at h3
    exact h3

theorem insertStr_holds (v : Str) (l : List (Option Ch)) (b : Bool) (h : Holds v l b) (off : Nat) (w : Str) (ys : List Ch) (b' : Bool)
    (hw : Holds w (ys.map some) b') :
    ∃ v', insertStr v off w = some v' ∧ Holds v' (l.take off ++ ys.map some ++ l.drop off) (b || decide (ys ≠ [])) := by
  have hl := h.length
  have hlw := hw.length
  simp at hlw
  unfold insertStr
  rw [hlw]
  by_cases hy : ys = []
  · subst hy
    exact ⟨v, by simp, by simpa using h⟩
  · have hpos : 0 < ys.length := List.length_pos_iff.2 hy
    rw [if_pos hpos]
    obtain ⟨v1, new, e1, h1, hn⟩ := resize_holds v l b h (length v + ys.length)
    rw [e1, Option.bind_some, hw.cStr, Option.bind_some]
    rw [List.take_of_length_le (by omega)] at h1
    rw [List.take_left' rfl, hl]
    obtain ⟨v2, e2, h2⟩ := spliceIn_rep v1 l new (some 0) ys (min off l.length) h1 (by omega) (by omega)
    refine ⟨v2, e2, .inr ⟨by simp [hy], ?_⟩⟩
    have t1 : l.take (min off l.length) = l.take off := by
      by_cases hc : off ≤ l.length
      · rw [Nat.min_eq_left hc]
      · rw [Nat.min_eq_right (by omega), List.take_length, List.take_of_length_le (by omega)]
    have t2 : l.drop (min off l.length) = l.drop off := by
      by_cases hc : off ≤ l.length
      · rw [Nat.min_eq_left hc]
      · rw [Nat.min_eq_right (by omega), List.drop_length, List.drop_eq_nil_of_le (by omega)]
    rw [t1, t2] at h2
    exact h2

theorem holds_empty : Holds (Vec.empty : Str) [] false := .inl ⟨rfl, rfl, rep_empty true⟩

theorem ofText_holds (xs r : List Ch) (hx : (0 : Ch) ∉ xs) (hl : xs.length ≤ npos) :
    ∃ v, ofText (xs ++ 0 :: r) = some v ∧ Holds v (xs.map some) true := by
  obtain ⟨v, e, h⟩ := insertText_holds Vec.empty [] false holds_empty npos npos xs r hx
  unfold ofText appendText
  rw [e, Option.bind_some, startsText_eq xs r hx, Option.bind_some]
  rw [List.take_of_length_le hl] at h
  by_cases hxe : xs = []
  · subst hxe
    simp at h
    obtain ⟨v', e', h', -⟩ := insertOne_rep true v [] (by
      rcases h with ⟨-, -, h⟩ | ⟨h, -⟩
      · exact h
      · cases h) v.sized (by
        rcases h with ⟨-, -, h⟩ | ⟨h, -⟩
        · exact Nat.le_of_eq (rep_sized h)
        · cases h) 0
    exact ⟨v', by simpa [pushBack] using e', .inr ⟨rfl, by simpa using h'⟩⟩
  · exact ⟨v, by simp [hxe], by simpa [hxe] using h⟩

theorem ofPrefix_holds (xs r : List Ch) (n : Nat) (hx : (0 : Ch) ∉ xs) (hl : xs.length ≤ npos) :
    ∃ v, ofPrefix (xs ++ 0 :: r) n = some v ∧ Holds v ((xs.take n).map some) (decide (n ≠ 0)) := by
  unfold ofPrefix
  by_cases h0 : n = 0
  · subst h0; exact ⟨_, rfl, by simpa using holds_empty⟩
  · rw [if_neg h0]
    simp only [h0, ne_eq, not_false_eq_true, decide_true]
    by_cases hp : n = npos
    · rw [if_neg (by simpa using hp)]
      obtain ⟨v, e, h⟩ := ofText_holds xs r hx hl
      refine ⟨v, e, ?_⟩
      rw [List.take_of_length_le (by omega)]; exact h
    · rw [if_pos hp, strlen_eq xs r hx, Option.bind_some]
      obtain ⟨v1, new, e1, h1, hn, -⟩ := FVec.resize_rep true 0 (Vec.empty : Str) [] (rep_empty true) (min n xs.length + 1)
      rw [e1, Option.bind_some]
      have ht : (xs ++ 0 :: r).take (min n xs.length) = xs.take n := by
        rw [List.take_append_of_le_length (by omega)]
        by_cases hc : n ≤ xs.length
        · rw [Nat.min_eq_left hc]
        · rw [Nat.min_eq_right (by omega), List.take_length, List.take_of_length_le (by omega)]
      rw [ht]
      simp only [List.take_nil, List.nil_append, List.length_nil, Nat.sub_zero] at h1 hn
      obtain ⟨i, x, hi, hil, -⟩ := exists_getLast new (min n xs.length) hn
      obtain ⟨buf, s, k⟩ := v1
      obtain ⟨t, hb, hs, -⟩ := h1
      simp only at hb hs
      subst hb
      have := copyLoop_eq true s k (xs.take n) [] i ([x] ++ t) 0 rfl (by simp; omega) (by simp)
      rw [hi]
      simp only [List.nil_append, List.append_assoc] at this ⊢
      rw [this, Option.bind_some]
      obtain ⟨v2, e2, h2⟩ := setBack_rep ⟨(xs.take n).map some ++ ([x] ++ t), s, k⟩ ((xs.take n).map some) x 0
        ⟨t, by simp, by simp [hs, hi]; omega, by simp⟩
      exact ⟨v2, e2, .inr ⟨rfl, h2⟩⟩

theorem ofRepeat_holds (n : Nat) (c : Ch) : ∃ v, ofRepeat n c = some v ∧ Holds v (List.replicate n (some c)) true := by
  obtain ⟨v1, e1, h1, hb⟩ := reserve_rep' true (Vec.empty : Str) [] (n + 1) (rep_empty true) (by simp)
  obtain ⟨v2, e2, h2⟩ := insertMany_rep true v1 [] h1 0 n (by simp) c
  obtain ⟨v3, e3, h3, -⟩ := insertOne_rep true v2 _ h2 v2.sized (Nat.le_of_eq (rep_sized h2)) 0
  refine ⟨v3, by simp only [ofRepeat, e1, Option.bind_some, e2]; exact e3, .inr ⟨rfl, ?_⟩⟩
  rw [rep_sized h2] at h3
  simpa using h3

theorem appendChar_holds (v : Str) (l : List (Option Ch)) (h : Holds v l true) (c : Ch) (hc : c ≠ 0) :
    ∃ v', appendChar v c = some v' ∧ Holds v' (l ++ [some c]) true := by
  rcases h with ⟨h, -⟩ | ⟨-, h⟩
  · cases h
  · obtain ⟨v1, e1, h1⟩ := setBack_rep v l _ c h
    obtain ⟨v2, e2, h2, -⟩ := insertOne_rep true v1 _ h1 v1.sized (Nat.le_of_eq (rep_sized h1)) 0
    refine ⟨v2, by simp only [appendChar, hc, ne_eq, not_false_eq_true, if_true, e1, Option.bind_some]; exact e2, .inr ⟨rfl, ?_⟩⟩
    rw [rep_sized h1, List.take_length, List.drop_length] at h2
    exact h2

theorem popBack_holds (v : Str) (l : List (Option Ch)) (h : Holds v l true) (hl : l ≠ []) :
    ∃ v', popBack v = some v' ∧ Holds v' l.dropLast true := by
  rcases h with ⟨h, -⟩ | ⟨-, h⟩
  · cases h
  · obtain ⟨v1, e1, h1, -⟩ := FVec.popBack_rep true v _ h
    rw [List.dropLast_concat] at h1
    obtain ⟨i, x, hi, -, hd⟩ := exists_getLast l (l.length - 1) (by have := List.length_pos_iff.2 hl; omega)
    rw [hi] at h1
    obtain ⟨v2, e2, h2⟩ := setBack_rep v1 i x 0 h1
    refine ⟨v2, ?_, .inr ⟨rfl, by rw [← hd]; exact h2⟩⟩
    rw [popBack, if_pos (by rw [rep_sized h]; simp), e1, Option.bind_some, e2]

theorem substr_holds (v : Str) (xs : List Ch) (b : Bool) (h : Holds v (xs.map some) b) (hx : (0 : Ch) ∉ xs) (hl : xs.length < 2 ^ 63)
    (start count : Nat) :
    ∃ v', substr v start count = some v' ∧ Holds v' (((xs.drop start).take count).map some) (decide (count ≠ 0 ∨ xs.length ≤ start)) := by
  have hlen := h.length
  simp at hlen
  unfold substr
  rw [hlen]
  by_cases hs : start ≥ xs.length
  · rw [if_pos hs]
    obtain ⟨v', e, h'⟩ := default_holds
    refine ⟨v', e, ?_⟩
    rw [List.drop_eq_nil_of_le hs]
    simpa [hs] using h'
  · rw [if_neg hs, h.cStr, Option.bind_some, List.drop_append_of_le_length (by omega)]
    have hx' : (0 : Ch) ∉ xs.drop start := fun hm => hx (List.mem_of_mem_drop hm)
    have hnp : npos = 2 ^ 64 - 1 := rfl
    obtain ⟨v', e, h'⟩ := ofPrefix_holds (xs.drop start) [] (if count = npos ∨ (count + start) % 2 ^ 64 > xs.length then xs.length - start else count)
      hx' (by simp; omega)
    refine ⟨v', e, ?_⟩
    split at h'
    · next hcase =>
      have h1 : xs.length - start ≤ count ∨ count + start ≥ 2 ^ 64 := by
        rcases hcase with hcase | hcase
        · omega
        · by_cases hh : count + start < 2 ^ 64
          · rw [Nat.mod_eq_of_lt hh] at hcase; omega
          · omega
      have h2 : xs.length - start ≤ count := by omega
      rw [List.take_of_length_le (by simp)] at h'
      rw [List.take_of_length_le (by simp; omega)]
      have d1 : (decide (xs.length - start ≠ 0)) = true := by simp; omega
      have d2 : decide (count ≠ 0 ∨ xs.length ≤ start) = true := by simp; omega
      rw [d2]; rw [d1] at h'; exact h'
    · have d2 : decide (count ≠ 0 ∨ xs.length ≤ start) = decide (count ≠ 0) := by
        simp only [decide_eq_decide]; omega
      rw [d2]; exact h'

theorem erase_holds (v : Str) (l : List (Option Ch)) (b : Bool) (h : Holds v l b) (start fin : Nat) :
    ∃ v', erase v start fin = some v' ∧ Holds v' (if start < fin then l.take start ++ l.drop fin else l) b := by
  have hl := h.length
  unfold erase
  rw [hl]
  by_cases hc : start < l.length ∧ start < fin
  · rw [if_pos hc, if_pos hc.2]
    rcases h with ⟨-, rfl, h⟩ | ⟨rfl, h⟩
    · simp at hc
    · generalize hf : (if fin > l.length then l.length else fin) = f
      have hf' : f = min fin l.length := by split at hf <;> omega
      obtain ⟨v', e, h', -⟩ := eraseRange_rep true v _ h start f (by omega) (by simp; omega)
      refine ⟨v', e, .inr ⟨rfl, ?_⟩⟩
      rw [List.take_append_of_le_length (by omega), List.drop_append_of_le_length (by omega), hf'] at h'
      have t2 : l.drop (min fin l.length) = l.drop fin := by
        by_cases hcc : fin ≤ l.length
        · rw [Nat.min_eq_left hcc]
        · rw [Nat.min_eq_right (by omega), List.drop_length, List.drop_eq_nil_of_le (by omega)]
      rw [t2] at h'
      simpa using h'
  · rw [if_neg hc]
    refine ⟨v, rfl, ?_⟩
    split
    · rw [List.take_of_length_le (by omega), List.drop_eq_nil_of_le (by omega)]; simpa using h
    · exact h

theorem clear_holds (v : Str) (l : List (Option Ch)) (b : Bool) (h : Holds v l b) :
    ∃ v', clear v = some v' ∧ Holds v' [] false := by
  have : ∃ L, Rep true v L := by
    rcases h with ⟨-, -, h⟩ | ⟨-, h⟩
    · exact ⟨_, h⟩
    · exact ⟨_, h⟩
  obtain ⟨L, hL⟩ := this
  obtain ⟨v', e, h', -⟩ := reserve_rep true v L 0 hL
  exact ⟨v', e, .inl ⟨rfl, rfl, by simpa using h'⟩⟩

theorem assign_holds (v : Str) (l : List (Option Ch)) (b : Bool) (h : Holds v l b) (w : Str) (ys : List Ch) (b' : Bool)
    (hw : Holds w (ys.map some) b') : ∃ v', assign v w = some v' ∧ Holds v' (ys.map some) b' := by
  have : ∃ L, Rep true v L := by
    rcases h with ⟨-, -, h⟩ | ⟨-, h⟩
    · exact ⟨_, h⟩
    · exact ⟨_, h⟩
  obtain ⟨L, hL⟩ := this
  unfold assign
  rw [hw.cells, Option.bind_some]
  obtain ⟨v', e, h'⟩ := FVec.assign_rep true 0 v L hL (if b' then ys ++ [0] else [])
  refine ⟨v', e, ?_⟩
  rcases hw with ⟨rfl, hy, -⟩ | ⟨rfl, -⟩
  · exact .inl ⟨rfl, hy, by simpa using h'⟩
  · exact .inr ⟨rfl, by simpa using h'⟩

theorem copy_holds (w : Str) (ys : List Ch) (b : Bool) (hw : Holds w (ys.map some) b) :
    ∃ v, copy w = some v ∧ Holds v (ys.map some) b := by
  unfold copy
  rw [hw.cells, Option.bind_some]
  obtain ⟨v', e, h'⟩ := insertRange_rep true (Vec.empty : Str) [] (rep_empty true) 0 (by simp) (if b then ys ++ [0] else [])
  refine ⟨v', e, ?_⟩
  rcases hw with ⟨rfl, hy, -⟩ | ⟨rfl, -⟩
  · exact .inl ⟨rfl, hy, by simpa using h'⟩
  · exact .inr ⟨rfl, by simpa using h'⟩

theorem resizeWith_holds (v : Str) (l : List (Option Ch)) (b : Bool) (h : Holds v l b) (n : Nat) (c : Ch) :
    ∃ v', resizeWith v n c = some v' ∧
      Holds v' (l.take n ++ (if l.length < n then (if b then some 0 else some c) :: List.replicate (n - l.length - 1) (some c) else [])) true := by
  have key : ∀ L : List (Option Ch), Rep true v L → ∃ v', resizeWith v n c = some v' ∧
      Rep true v' ((L.take (n + 1) ++ List.replicate (n + 1 - L.length) (some c)).dropLast ++ [some 0]) := by
    intro L hL
    obtain ⟨v1, e, h1⟩ := FVec.resizeWith_rep true v L hL (n + 1) c
    obtain ⟨i, x, hi, -, hd⟩ := exists_getLast (L.take (n + 1) ++ List.replicate (n + 1 - L.length) (some c)) n (by simp; omega)
    rw [hi] at h1
    obtain ⟨v2, e2, h2⟩ := setBack_rep v1 i x 0 h1
    refine ⟨v2, by simp only [resizeWith, e, Option.bind_some, e2], ?_⟩
    rw [hi]; simpa using h2
  rcases h with ⟨rfl, rfl, h⟩ | ⟨rfl, h⟩
  · obtain ⟨v', e, hr⟩ := key [] h
    refine ⟨v', e, .inr ⟨rfl, ?_⟩⟩
    convert hr using 2
    cases n with
    | zero => simp
    | succ n =>
      simp only [List.take_nil, List.nil_append, List.length_nil, Nat.zero_lt_succ, if_true, Nat.sub_zero, Nat.add_sub_cancel]
      rw [List.replicate_succ', List.dropLast_concat]
      simp [List.replicate_succ]
  · obtain ⟨v', e, hr⟩ := key _ h
    refine ⟨v', e, .inr ⟨rfl, ?_⟩⟩
    convert hr using 2
    by_cases hc : l.length < n
    · rw [if_pos hc, List.take_of_length_le (by omega), List.take_of_length_le (by simp; omega)]
      simp only [if_true, List.length_append, List.length_cons, List.length_nil]
      rw [show n + 1 - (l.length + (0 + 1)) = (n - l.length - 1) + 1 by omega, List.replicate_succ', ← List.append_assoc,
        List.dropLast_concat]
      simp
    · rw [if_neg hc]
      rw [show n + 1 - (l ++ [some (0 : Ch)]).length = 0 by simp; omega]
      simp only [List.replicate_zero, List.append_nil]
      rw [List.dropLast_eq_take, List.take_take, List.length_take]
      rw [List.length_append, List.length_cons, List.length_nil]
      rw [show min (min (n + 1) (l.length + (0 + 1)) - 1) (n + 1) = n by omega, List.take_append_of_le_length (by omega)]

end Verif.FStr
