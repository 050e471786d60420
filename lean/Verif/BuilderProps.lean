import Verif.BuilderAux
import Verif.BuilderLemmas

/-!
# C10, C58, C59: the string builder

The specification is a plain list of characters. `Op` lists what a program can do to a builder, `Op.spec` says what each call
should do to the text, and `Op.Legal` lists the caller's obligations.
-/

namespace Verif.FBld

open Verif.FStr (Ch)

/-- A history of calls. -/
def runAll (v : Bld) : List Op → Option Bld
  | [] => some v
  | o :: os => (o.run v).bind fun v' => runAll v' os

/-- Every call of the history meets its obligations on the text it is made on. -/
def AllLegal (l : List Ch) : List Op → Prop
  | [] => True
  | o :: os => o.Legal l ∧ AllLegal (o.spec l) os

/-- **C10.** Any legal history of calls on a builder made by any constructor runs without undefined behaviour (in particular every
write is inside the reserved buffer) and leaves a builder whose length is that of the specified text and whose `ToCharPtr()` points
to exactly that text, terminated. -/
theorem builder_refines_text (n : Nat) (ops : List Op) (h : AllLegal [] ops) :
    ∃ v v' junk, runAll (ofReserve n) ops = some v ∧ v.size = (ops.foldl Op.spec []).length ∧
      toCharPtr v = some v' ∧ v'.buf = (ops.foldl Op.spec []).map some ++ some 0 :: junk := by
  have key : ∀ (ops : List Op) (v : Bld) (l : List Ch), Holds v l → AllLegal l ops →
      ∃ v', runAll v ops = some v' ∧ Holds v' (ops.foldl Op.spec l) := by
    intro ops
    induction ops with
    | nil => intro v l h _; exact ⟨v, rfl, h⟩
    | cons o os ih =>
      intro v l h hl
      obtain ⟨v1, e1, h1⟩ := op_refines h o hl.1
      obtain ⟨v2, e2, h2⟩ := ih v1 _ h1 hl.2
      exact ⟨v2, by unfold runAll; rw [e1, Option.bind_some, e2], h2⟩
  obtain ⟨v, e, hv⟩ := key ops (ofReserve n) [] (by simpa [ofReserve] using reserve_holds holds_null n) h
  obtain ⟨v', j, e', h1, _⟩ := toCharPtr_holds hv
  exact ⟨v, v', j, e, by obtain ⟨_, _, h2⟩ := hv; exact h2, e', h1⟩

/-- The hypothesis is met by a history that mixes the kinds of call, with growth, self-append and removal. -/
example : AllLegal [] [.text [97, 98, 0], .u32 4294967295, .self, .i32 (-2147483648), .removeRange 1 3, .hex8 255, .reserve 7,
    .builder ⟨[some 120], 1⟩, .pop, .removeFrom 4, .line [0, 5]] := by
  simp only [AllLegal, Op.Legal, Op.spec, and_true, true_and]
  refine ⟨by simp, by omega, by omega, by decide +kernel, by omega, ⟨[120], [], rfl, rfl⟩, by decide +kernel, by simp⟩

/-- **C10, text.** When no zero character was appended (the header forbids it), `ToString()` is the text. -/
theorem builder_toString {v : Bld} {l : List Ch} (n : Nat) (ops : List Op) (h : AllLegal [] ops)
    (hv : runAll (ofReserve n) ops = some v) (hl : l = ops.foldl Op.spec []) (hz : 0 ∉ l) : toText v = some l := by
  obtain ⟨w, v', j, e, _, e', hb⟩ := builder_refines_text n ops h
  rw [hv] at e
  cases e
  unfold toText
  rw [e', Option.bind_some, hb, ← hl]
  exact textAt_of l hz j

example : toText ((runAll (ofReserve 0) [.text [97, 98, 0], .self, .u32 10]).getD Bld.null) = some [97, 98, 97, 98, 49, 48] := by
  decide +kernel

/-- **C10, constructors.** The constructor from a text holds the text, the repeat constructor holds the repeated character. -/
theorem builder_constructors (mem : List Ch) (hm : 0 ∈ mem) (c : Ch) (count : Nat) :
    (∃ v, ofText mem = some v ∧ Holds v (cText mem)) ∧ ∃ v, ofRepeat c count = some v ∧ Holds v (List.replicate count c) := by
  have h0 : ∀ k, Holds (reserve Bld.null k) [] := fun k => by simpa using reserve_holds holds_null k
  constructor
  · have hs : ∃ k, FStr.strlen mem = some k := by
      induction mem with
      | nil => cases hm
      | cons x rest ih =>
        by_cases hx : x = 0
        · exact ⟨0, by simp [FStr.strlen, hx]⟩
        · obtain ⟨k, e⟩ := ih (by rcases List.mem_cons.1 hm with e | e; exact absurd e.symm hx; exact e)
          exact ⟨k + 1, by simp [FStr.strlen, hx, e]⟩
    obtain ⟨k, e⟩ := hs
    obtain ⟨v, e1, h1⟩ := appendText_holds mem (h0 (k + 32)) hm
    exact ⟨v, by unfold ofText; rw [e, Option.bind_some, e1], h1⟩
  · obtain ⟨v, e, h⟩ := fill_holds c count (h0 (count + 32)) (by rw [reserved_reserve _ (by simp [Bld.null])]; simp)
    exact ⟨v, e, by simpa using h⟩

/-- **C58, partial.** `index(c)` finds the first occurrence when there is one. Missing: it should answer -1 when there is none. -/
theorem builder_index_partial {v : Bld} {l : List Ch} (h : Holds v l) (c : Ch) (hc : c ∈ l) : index v c = some (l.idxOf c : Int) := by
  obtain ⟨j, h1, h2⟩ := h
  have hl : 0 < l.length := List.length_pos_of_mem hc
  unfold index
  rw [if_pos ⟨by simp [h1]; omega, by omega⟩, h1]
  simpa using indexLoop_eq c j l [] (v.size + 1) hc (by omega)

example : index ⟨[some 97, some 98, some 98], 3⟩ 98 = some 1 := by decide +kernel

/-- **C58, violated.** `index` looks one character too far: after appending "abc" and `pop_back()` it finds the removed `c`; when the
buffer is full it reads outside the buffer. -/
theorem builder_index_violated :
    (∃ v, runAll (ofReserve 32) [.text [97, 98, 99, 0], .pop] = some v ∧ Holds v [97, 98] ∧ index v 99 = some 2) ∧
    ∃ v, runAll (ofReserve 2) [.text [97, 98, 0]] = some v ∧ Holds v [97, 98] ∧ index v 99 = none := by
  refine ⟨⟨_, rfl, ⟨some 99 :: List.replicate 29 none, by decide +kernel, by decide +kernel⟩, by decide +kernel⟩,
    ⟨_, rfl, ⟨[], by decide +kernel, by decide +kernel⟩, by decide +kernel⟩⟩

/-- **C58, partial.** `rindex(c)` is the last occurrence of `c` unless that is the first character of the text, and -1 when `c` does not
occur. Missing: the last occurrence at position 0. -/
theorem builder_rindex_partial {v : Bld} {l : List Ch} (h : Holds v l) (c : Ch) :
    (c ∉ l → rindex v c = some (-1)) ∧
    (∀ k, 1 ≤ k → ∀ hk : k < l.length, l[k] = c → (∀ i (hi : i < l.length), k < i → l[i] ≠ c) → rindex v c = some (k : Int)) := by
  have hsz : v.size = l.length := by obtain ⟨_, _, h2⟩ := h; exact h2
  have hbl : l.length ≤ v.buf.length := by have := h.size_le; rw [hsz] at this; exact this
  constructor
  · intro hc
    unfold rindex
    split
    · apply rindexLoop_none
      intro i h1 h2
      exact ⟨l[i]'(by omega), peek_holds h i (by omega), fun e => hc (e ▸ List.getElem_mem _)⟩
    · rfl
  · intro k hk1 hk e hlast
    unfold rindex
    rw [if_pos ⟨by omega, by omega⟩]
    apply rindexLoop_some v.buf c k hk1 (by rw [peek_holds h k hk, e]) _ (by omega)
    intro i h1 h2
    exact ⟨l[i]'(by omega), peek_holds h i (by omega), hlast i (by omega) h1⟩

example : rindex ⟨[some 97, some 98, some 98], 3⟩ 98 = some 2 ∧ rindex ⟨[some 97, some 98], 2⟩ 99 = some (-1) := by decide +kernel

/-- **C58, violated.** `rindex` never looks at the first character. -/
theorem builder_rindex_violated : ∃ v, runAll (ofReserve 32) [.text [97, 0]] = some v ∧ Holds v [97] ∧ rindex v 97 = some (-1) :=
  ⟨_, rfl, ⟨List.replicate 31 none, by decide +kernel, by decide +kernel⟩, by decide +kernel⟩

/-- **C59, partial.** Appending a `uint64` below 2^32 appends its numeral. Missing: the larger values. -/
theorem builder_u64_partial {v : Bld} {l : List Ch} (h : Holds v l) (n : Nat) (hn : n < 2 ^ 32) :
    ∃ v', appendU64 v n = some v' ∧ Holds v' (l ++ numeral n) := op_refines h (.u32 n) hn

example : (appendU64 Bld.null 123).bind toText = some (numeral 123) := by decide +kernel

/-- **C59, violated.** 2^32 is written as "0". -/
theorem builder_u64_violated : (appendU64 (ofReserve 32) (2 ^ 32)).bind toText = some [48] ∧ numeral (2 ^ 32) ≠ [48] := by
  decide +kernel

end Verif.FBld
