import Verif.StrAux
import Verif.StrLemmas
import Mathlib.Data.List.Lex
import Mathlib.Data.Int.Order.Basic

/-!
# Properties of `fm::string` (C08, C56, C57)

Specification: a sequence of characters without NUL. A `none` entry is a character whose value is not specified (the new
characters of `resize(n)`). The second component of a text state tells whether the string still has a buffer; it is lost by
`clear()` and by building a string from zero characters.
-/

namespace Verif.FStr

open Verif.FVec

def run (v : Str) : List Op → Option Str
  | [] => some v
  | op :: ops => (step v op).bind fun v' => run v' ops

inductive IdealRun : List (Option Ch) → List Op → List (Option Ch) → Prop
  | nil (l) : IdealRun l [] l
  | cons {l op l' ops l''} : Ideal l op l' → IdealRun l' ops l'' → IdealRun l (op :: ops) l''

def Allowed : List (Option Ch) → Bool → List Op → Prop
  | _, _, [] => True
  | l, b, op :: ops => op.ok l b ∧ l.length < 2 ^ 63 ∧ ∀ l', Ideal l op l' → Allowed l' (keepsBuffer l b op) ops

/-- C08 (partial): over any history with allowed arguments, starting from a default-constructed string, no operation is undefined;
the string ends up holding the text the same edits give on an ideal sequence; its `length()` is the length of that text, and
its buffer is the text followed by one terminator, or, after `clear()`, nothing (`c_str()` is then the empty text).
What is missing from C08: `append(char)` on a string without buffer, and `resize(n, c)`
(`string_append_after_clear_violated`, `string_resize_fill_violated`). -/
theorem string_refines_text_partial (ops : List Op) (hok : Allowed [] true ops) :
    ∃ v0 v l b, default = some v0 ∧ run v0 ops = some v ∧ IdealRun [] ops l ∧ length v = l.length ∧
      (v.buf.take v.sized = l ++ [some 0] ∨ (b = false ∧ v.sized = 0 ∧ l = [])) := by
  have main : ∀ (ops : List Op) (v : Str) (l : List (Option Ch)) (b : Bool), Holds v l b → Allowed l b ops →
      ∃ v' l' b', run v ops = some v' ∧ IdealRun l ops l' ∧ Holds v' l' b' := by
    intro ops
    induction ops with
    | nil => intro v l b h _; exact ⟨v, l, b, rfl, .nil l, h⟩
    | cons op ops ih =>
      intro v l b h hok
      obtain ⟨v1, l1, e1, i1, h1⟩ := step_ideal v l b h hok.2.1 op hok.1
      obtain ⟨v2, l2, b2, e2, i2, h2⟩ := ih v1 l1 _ h1 (hok.2.2 l1 i1)
      exact ⟨v2, l2, b2, by rw [run, e1, Option.bind_some, e2], .cons i1 i2, h2⟩
  obtain ⟨v0, e0, h0⟩ := default_holds
  obtain ⟨v, l, b, e, i, h⟩ := main ops v0 [] true h0 hok
  refine ⟨v0, v, l, b, e0, e, i, h.length, ?_⟩
  rcases h with ⟨rfl, rfl, h⟩ | ⟨-, h⟩
  · exact .inr ⟨rfl, by simpa using rep_sized h, rfl⟩
  · exact .inl (rep_take h)

example : Allowed [] true [.setText [97, 98], .appendChar 99, .erase 0 1, .clear, .appendText [100] 5, .appendChar 101] := by
  refine ⟨⟨by decide, by decide⟩, by decide, fun l hl => ?_⟩
  cases hl
  refine ⟨.inr rfl, by decide, fun l hl => ?_⟩
  cases hl
  refine ⟨trivial, by decide, fun l hl => ?_⟩
  cases hl
  refine ⟨trivial, by decide, fun l hl => ?_⟩
  cases hl
  refine ⟨⟨by decide, by decide⟩, by decide, fun l hl => ?_⟩
  cases hl
  refine ⟨.inr rfl, by decide, fun l hl => ?_⟩
  cases hl
  trivial

/-- C08 is violated: `string s("a"); s.clear(); s.append('b');` is undefined (`back()` of an empty buffer). -/
theorem string_append_after_clear_violated :
    ∃ v, run ⟨[], 0, 0⟩ [.setText [97], .clear] = some v ∧ length v = 0 ∧ step v (.appendChar 98) = none := by
  exact ⟨_, rfl, by decide, by decide⟩

/-- C08 is violated: `string s("a"); s = s.substr(0, 0); s.append('b');` is undefined too. -/
theorem string_append_after_substr_violated :
    ∃ v, run ⟨[], 0, 0⟩ [.setText [97], .substr 0 0] = some v ∧ length v = 0 ∧ step v (.appendChar 98) = none := by
  exact ⟨_, rfl, by decide, by decide⟩

/-- C08 is violated: growing with `resize(n, c)` keeps the old terminator inside the text: `string s("a"); s.resize(3, 'x');` gives
`"a\0x"` of length 3 rather than `"axx"`. -/
theorem string_resize_fill_violated :
    ∃ v w, ofText [97, 0] = some v ∧ resizeWith v 3 120 = some w ∧ length w = 3 ∧ cells w = some [97, 0, 120, 0] := by
  exact ⟨_, _, rfl, rfl, by decide, by decide⟩

/-- The exact effect of `resize(n, c)`: the text is cut, or extended by the old terminator (if there is a buffer) and copies of `c`. -/
theorem string_resize_fill_partial (v : Str) (l : List (Option Ch)) (b : Bool) (h : Holds v l b) (n : Nat) (c : Ch) :
    ∃ v', resizeWith v n c = some v' ∧ (n ≤ l.length → Holds v' (l.take n) true) ∧
      (b = false → Holds v' (List.replicate n (some c)) true) := by
  obtain ⟨v', e, h'⟩ := resizeWith_holds v l b h n c
  refine ⟨v', e, fun hn => ?_, fun hb => ?_⟩
  · rw [if_neg (by omega), List.append_nil] at h'; exact h'
  · subst hb
    have hl : l = [] := by
      rcases h with ⟨-, hl, -⟩ | ⟨hb, -⟩
      · exact hl
      · cases hb
    subst hl
    cases n with
    | zero => simpa using h'
    | succ n => simpa [List.replicate_succ] using h'

/-- C56: `operator+` and the copy constructor: the concatenation, the operands being untouched. -/
theorem string_concat (v w : Str) (xs ys : List Ch) (b b' : Bool) (hv : Holds v (xs.map some) b) (hw : Holds w (ys.map some) b')
    (hl : xs.length < 2 ^ 63) :
    ∃ u b'', concat v w = some u ∧ Holds u ((xs ++ ys).map some) b'' := by
  obtain ⟨c, e, hc⟩ := copy_holds v xs b hv
  obtain ⟨u, e', hu⟩ := insertStr_holds c _ b hc npos w ys b' hw
  have h1 : (xs.map some).length ≤ npos := by simpa using npos_big hl
  rw [List.take_of_length_le h1, List.drop_eq_nil_of_le h1, List.append_nil, ← List.map_append] at hu
  exact ⟨u, _, by rw [concat, e, Option.bind_some]; exact e', hu⟩

/-- C56: `==` and `!=` compare the texts, whatever the state of the buffers. -/
theorem string_eq_iff (v w : Str) (xs ys : List Ch) (b b' : Bool) (hv : Holds v (xs.map some) b) (hw : Holds w (ys.map some) b')
    (hx : (0 : Ch) ∉ xs) (hy : (0 : Ch) ∉ ys) :
    eq v w = some (decide (xs = ys)) ∧ ne v w = some (decide (xs ≠ ys)) := by
  have l1 := hv.length
  have l2 := hw.length
  simp at l1 l2
  unfold eq ne
  rw [l1, l2]
  by_cases hl : xs.length = ys.length
  · rw [if_neg (by simpa using hl), if_neg (by simpa using hl), hv.cStr, Option.bind_some, hw.cStr, Option.bind_some,
      Option.bind_some, Option.bind_some, eqLoop_eq xs ys hx hy]
    simp
  · have : xs ≠ ys := fun h => hl (by rw [h])
    rw [if_pos hl, if_pos hl]
    simp [this]

/-- C56: `<` is the lexicographic order on the terminated texts (signed characters). -/
theorem string_lt_iff (v w : Str) (xs ys : List Ch) (b b' : Bool) (hv : Holds v (xs.map some) b) (hw : Holds w (ys.map some) b')
    (hx : (0 : Ch) ∉ xs) (hy : (0 : Ch) ∉ ys) :
    lt v w = some (decide (xs ++ [0] < ys ++ [0])) := by
  unfold lt
  rw [hv.cStr, Option.bind_some, hw.cStr, Option.bind_some, ltLoop_eq xs ys hx hy]

/-- C56: `<` is a strict total order compatible with `==`, as `fm::map` needs of its keys. -/
theorem string_order_total (v w u : Str) (xs ys zs : List Ch) (b b' b'' : Bool) (hv : Holds v (xs.map some) b)
    (hw : Holds w (ys.map some) b') (hu : Holds u (zs.map some) b'') (hx : (0 : Ch) ∉ xs) (hy : (0 : Ch) ∉ ys) (hz : (0 : Ch) ∉ zs) :
    lt v v = some false ∧
    (lt v w = some true → lt w u = some true → lt v u = some true) ∧
    ((lt v w = some true ∧ lt w v = some false ∧ eq v w = some false) ∨
     (lt v w = some false ∧ lt w v = some true ∧ eq v w = some false) ∨
     (lt v w = some false ∧ lt w v = some false ∧ eq v w = some true)) := by
  rw [string_lt_iff v v xs xs b b hv hv hx hx, string_lt_iff v w xs ys b b' hv hw hx hy, string_lt_iff w u ys zs b' b'' hw hu hy hz,
    string_lt_iff v u xs zs b b'' hv hu hx hz, string_lt_iff w v ys xs b' b hw hv hy hx, (string_eq_iff v w xs ys b b' hv hw hx hy).1]
  have heq : xs = ys ↔ xs ++ [0] = ys ++ [0] := by simp
  simp only [Option.some.injEq, decide_eq_true_eq, decide_eq_false_iff_not, heq]
  generalize xs ++ [(0 : Ch)] = a
  generalize ys ++ [(0 : Ch)] = c
  generalize zs ++ [(0 : Ch)] = d
  refine ⟨lt_irrefl a, fun h1 h2 => lt_trans h1 h2, ?_⟩
  rcases lt_trichotomy a c with h | h | h
  · exact .inl ⟨h, not_lt_of_gt h, ne_of_lt h⟩
  · exact .inr (.inr ⟨by rw [h]; exact lt_irrefl c, by rw [h]; exact lt_irrefl c, h⟩)
  · exact .inr (.inl ⟨not_lt_of_gt h, h, ne_of_gt h⟩)

/-- For texts of ASCII characters the order is the ordinary dictionary order. -/
theorem string_lt_ascii (v w : Str) (xs ys : List Ch) (b b' : Bool) (hv : Holds v (xs.map some) b) (hw : Holds w (ys.map some) b')
    (hx : ∀ c ∈ xs, 0 < c) (hy : ∀ c ∈ ys, 0 < c) : lt v w = some (decide (xs < ys)) := by
  rw [string_lt_iff v w xs ys b b' hv hw (fun h => Int.lt_irrefl 0 (hx 0 h)) (fun h => Int.lt_irrefl 0 (hy 0 h))]
  congr 1
  simp only [decide_eq_decide]
  clear hv hw
  induction xs generalizing ys with
  | nil =>
    cases ys with
    | nil => simp
    | cons y ys => simp [List.cons_lt_cons_iff, hy y (by simp)]
  | cons x xs ih =>
    have hx0 := hx x (by simp)
    cases ys with
    | nil => simp [List.cons_lt_cons_iff]; exact Int.le_of_lt hx0
    | cons y ys =>
      simp only [List.cons_append, List.cons_lt_cons_iff]
      rw [ih ys (fun c hc => hx c (by simp [hc])) (fun c hc => hy c (by simp [hc]))]

/-- Outside ASCII it is not: "a" compares above "a\xE9". -/
example : ∃ v w, ofText [97, 0] = some v ∧ ofText [97, -23, 0] = some w ∧ lt v w = some false ∧ lt w v = some true :=
  ⟨_, _, rfl, rfl, by decide, by decide⟩

example : ∃ v w, ofText [97, 0] = some v ∧ ofText [97, 98, 0] = some w ∧ lt v w = some true ∧ eq v w = some false :=
  ⟨_, _, rfl, rfl, by decide, by decide⟩

/-- C57 (partial): inserting a string into itself at the front or appending it to itself doubles the text. -/
theorem string_insert_self_partial (v : Str) (xs : List Ch) (b : Bool) (hv : Holds v (xs.map some) b) (off : Nat)
    (ho : off = 0 ∨ xs.length ≤ off) :
    ∃ v' b', insertSelf v off = some v' ∧ Holds v' ((xs ++ xs).map some) b' := by
  have hl := hv.length
  simp at hl
  unfold insertSelf
  simp only [hl]
  by_cases hx : xs = []
  · subst hx; exact ⟨v, b, by simp, by simpa using hv⟩
  have hpos : 0 < xs.length := List.length_pos_iff.2 hx
  rw [if_pos hpos]
  obtain ⟨v1, new, e1, h1, hn⟩ := resize_holds v _ b hv (xs.length + xs.length)
  rw [e1, Option.bind_some]
  rw [List.take_of_length_le (by simp)] at h1
  simp at hn
  have hoff : min off xs.length = 0 ∨ min off xs.length = xs.length := by omega
  -- the splice of the same characters does the same
  obtain ⟨v2, e2, h2⟩ := spliceIn_rep v1 (xs.map some) new (some 0) xs (min off xs.length) h1 hn (by simp; omega)
  unfold spliceIn at e2
  simp only [List.length_map] at e2
  refine ⟨v2, true, ?_, .inr ⟨rfl, ?_⟩⟩
  · rw [← e2]
    rcases hoff with h0 | h0 <;> rw [h0]
    · simp only [Nat.zero_add, Nat.sub_zero]
      obtain ⟨buf, s, k⟩ := v1
      obtain ⟨t, hb, hs, -⟩ := h1
      simp only at hb hs
      subst hb
      simp only [hpos, if_true, ne_eq, not_true_eq_false, false_and, if_false]
      unfold memmove
      rw [if_pos (by simp; omega)]
      simp only [Option.bind_some, List.drop_zero]
      have : (List.take xs.length ((List.map some xs ++ new ++ [some 0] ++ t).take xs.length ++
          ((List.map some xs ++ new ++ [some 0] ++ t).take xs.length ++
            (List.map some xs ++ new ++ [some 0] ++ t).drop (xs.length + xs.length)))).mapM id = some xs := by
        have : (List.map some xs ++ new ++ [some 0] ++ t).take xs.length = List.map some xs := by
          rw [List.append_assoc, List.append_assoc]; exact List.take_left' (by simp)
        rw [this, List.take_left' (by simp), mapM_id_some]
      rw [this, Option.bind_some]
    · simp only [Nat.lt_irrefl, if_false, Option.bind_some, and_false]
      obtain ⟨buf, s, k⟩ := v1
      obtain ⟨t, hb, hs, -⟩ := h1
      simp only at hb hs
      subst hb
      have : (List.map some xs ++ new ++ [some 0] ++ t).take xs.length = List.map some xs := by
        rw [List.append_assoc, List.append_assoc]; exact List.take_left' (by simp)
      simp only [this, mapM_id_some, Option.bind_some]
  · rcases hoff with h0 | h0 <;> rw [h0] at h2
    · simpa using h2
    · rw [List.take_of_length_le (by simp), List.drop_eq_nil_of_le (by simp)] at h2
      simpa using h2

/-- C57 is violated in the middle: the copied ranges overlap. -/
theorem string_insert_self_violated : ∃ v, ofText [97, 98, 0] = some v ∧ insertSelf v 1 = none := ⟨_, rfl, by decide⟩

end Verif.FStr
