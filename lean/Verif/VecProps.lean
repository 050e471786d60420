import Verif.VecAux
import Verif.VecLemmas

/-!
# Properties of `fm::vector` (C05, C06, C55)

Specification: an ideal list. A `none` entry of the ideal list is a value that is not specified (the new elements of
`resize(n)` for trivially copyable types).
-/

namespace Verif.FVec

variable {T : Type} [DecidableEq T]

/-- C05: every in-range history runs without leaving the buffer and without touching a missing object; afterwards the vector
holds exactly what the ideal list holds, and the capacity is at least the size. -/
theorem vector_refines_sequence (triv : Bool) (dflt : T) (ops : List (Op T)) (hr : InRange triv dflt [] ops) :
    ∃ v l, run triv dflt Vec.empty ops = some v ∧ IdealRun triv dflt [] ops l ∧
      v.sized = l.length ∧ v.sized ≤ v.buf.length ∧ (∀ (i : Nat) (hi : i < l.length), at? triv v i = some l[i]) ∧
      (triv = false → ∀ c ∈ l, c ≠ none) := by
  obtain ⟨v, l, e, hi, h⟩ := run_ideal triv dflt ops Vec.empty [] (rep_empty triv) hr
  refine ⟨v, l, e, hi, h.choose_spec.2.1, h.sized_le, fun i hi => readCell_rep triv v l h i hi, fun ht c hc => ?_⟩
  have := (h.choose_spec.2.2 ht).1 c hc
  intro hn; rw [hn] at this; simp at this

/-- `find` and `contains` on a reachable vector: the first position of the value, or the end. -/
theorem vector_find (triv : Bool) (dflt : T) (ops : List (Op T)) (hr : InRange triv dflt [] ops) (x : T) :
    ∃ v l, run triv dflt Vec.empty ops = some v ∧ IdealRun triv dflt [] ops l ∧
      findLoop triv v x 0 = some (l.idxOf (some x)) ∧ contains triv v x = some (decide (some x ∈ l)) := by
  obtain ⟨v, l, e, hi, h⟩ := run_ideal triv dflt ops Vec.empty [] (rep_empty triv) hr
  have hf := findLoop_eq triv v l h x 0 (by omega)
  simp only [List.drop_zero, Nat.zero_add] at hf
  refine ⟨v, l, e, hi, hf, ?_⟩
  have hs : v.sized = l.length := h.choose_spec.2.1
  rw [contains, hf, Option.map_some, hs]
  congr 1
  by_cases hm : some x ∈ l
  · have := List.idxOf_lt_length_of_mem hm; simp [hm]; omega
  · simp [hm]

/-- A history with growth, shifting and erasure meets the hypothesis. -/
example : InRange false 0 [] [Op.pushBack 1, .pushFront 2, .insertMany 1 3 7, .eraseRange 0 2, .reserve 5] := by
  refine ⟨trivial, fun l h => ?_⟩; cases h
  refine ⟨trivial, fun l h => ?_⟩; cases h
  refine ⟨by simp [Op.ok], fun l h => ?_⟩; cases h
  refine ⟨by simp [Op.ok], fun l h => ?_⟩; cases h
  exact ⟨trivial, fun l h => trivial⟩

/-! ### C06: an own element as argument -/

omit [DecidableEq T] in
/-- C06 is violated: pushing an own element into a full vector reads freed memory (for every full, non-empty vector). -/
theorem vector_push_own_violated (triv : Bool) (v : Vec T) (l : List (Option T)) (h : Rep triv v l) (hfull : v.sized = v.buf.length) (i : Nat) :
    FVec.pushBack triv v (.own i) = none := by
  have hs : v.sized = l.length := h.choose_spec.2.1
  unfold FVec.pushBack insertOne
  rw [if_pos (by omega), if_pos hfull]
  cases reserve triv v (v.sized + (if v.sized > 31 then 32 else v.sized + 1)) with
  | none => rfl
  | some v1 =>
    rw [Option.bind_some]
    cases shiftUp triv v1 v.sized 1 with
    | none => rfl
    | some v2 => simp [Arg.get, hfull]

/-- The hypotheses hold for a vector of one element that is full. -/
example : FVec.pushBack true (⟨[some 5], 1, 0⟩ : Vec Nat) (.own 0) = none :=
  vector_push_own_violated true _ [some 5] ⟨[], rfl, rfl, by simp⟩ rfl 0

/-- C06 is violated even with spare capacity: inserting the own element 1 at the front of `[1, 2]` inserts 1 instead of 2. -/
theorem vector_insert_own_violated :
    insertOne true (⟨[some 1, some 2, none], 2, 0⟩ : Vec Nat) 0 (.own 1) = some ⟨[some 1, some 1, some 2], 3, 0⟩ ∧
    insertOne false (⟨[some 1, some 2, none], 2, 0⟩ : Vec Nat) 0 (.own 0) = none := by
  decide

omit [DecidableEq T] in
/-- C06, the part that holds: with spare capacity and an element before the insertion point (in particular
`push_back(v[i])`), the element's value is inserted. Missing: full vectors and elements at or after the insertion point. -/
theorem vector_insert_own_partial (triv : Bool) (v : Vec T) (l : List (Option T)) (h : Rep triv v l) (hroom : v.sized < v.buf.length)
    (it i : Nat) (hit : it ≤ l.length) (hi : i < it) (x : T) (hx : l[i]? = some (some x)) :
    ∃ v', insertOne triv v it (.own i) = some v' ∧ Rep triv v' (l.insertIdx it (some x)) := by
  have hs : v.sized = l.length := h.choose_spec.2.1
  obtain ⟨v', e, h', -⟩ := insertOne_rep triv v l h it hit x
  refine ⟨v', ?_, by rw [insertIdx_eq l it hit]; exact h'⟩
  rw [← e]
  unfold insertOne
  have c1 : it ≤ v.sized := by omega
  have c2 : ¬ v.sized = v.buf.length := by omega
  simp only [if_pos c1, if_neg c2, Option.bind_some]
  obtain ⟨A, M, D, R, hv, rfl, rfl, hD, hinv⟩ := rep_split triv v l h it 1 (by omega)
  obtain ⟨G, hG, hGn, -, e2⟩ := shiftUp_eq triv (l.take it) (l.drop it) D R l.length v.lost it (by simp [hit]) (by simp; omega)
    (by intro h; simp [h] at hD) (fun ht => ⟨fun c hc => (hinv ht).1 c (List.mem_of_mem_drop hc), (hinv ht).2.1⟩)
  rw [hD, ← hv] at e2
  simp only [e2, Option.bind_some]
  have hget : Arg.get triv (decide (v.sized = v.buf.length)) (l.take it ++ (G ++ (l.drop it ++ R))) (Arg.own i : Arg T) = some (some x) := by
    have hne : decide (v.sized = v.buf.length) = false := by simp; omega
    rw [hne]
    have : (l.take it ++ (G ++ (l.drop it ++ R)))[i]? = some (some x) := by
      rw [List.getElem?_append_left (by simp; omega), List.getElem?_take_of_lt hi, hx]
    simp [Arg.get, readCell, this]
  rw [hget]; rfl

/-- The hypotheses hold for a vector `[4, 9]` with one spare cell. -/
example : ∃ v', insertOne false (⟨[some 4, some 9, none], 2, 0⟩ : Vec Nat) 2 (.own 0) = some v' ∧ Rep false v' [some 4, some 9, some 4] :=
  vector_insert_own_partial false _ [some 4, some 9] ⟨[none], rfl, rfl, by simp⟩ (by decide) 2 0 (by decide) (by decide) 4 rfl

/-! ### C55: element lifetimes -/

/-- C55 is violated: the second `push_back` into a vector of class-type values gives up one object without destroying it. -/
theorem vector_lifetime_violated : ∃ v, run false 0 (Vec.empty : Vec Nat) [.pushBack 1, .pushBack 2] = some v ∧ v.lost = 1 := by
  refine ⟨⟨[some 1, some 2, none], 2, 1⟩, by decide, rfl⟩

omit [DecidableEq T] in
/-- C55: every reallocation of a class-type vector loses as many objects as the vector keeps. -/
theorem vector_realloc_loses (v : Vec T) (l : List (Option T)) (h : Rep false v l) (count : Nat) (hne : v.buf.length ≠ count) :
    ∃ v', FVec.reserve false v count = some v' ∧ v'.lost = v.lost + min count l.length := by
  obtain ⟨v', e, -, -, hl⟩ := reserve_rep false v l count h
  exact ⟨v', e, by rw [hl]; simp [hne]⟩

/-- The hypotheses hold for growing a vector of two strings: both are lost. -/
example : ∃ v', FVec.reserve false (⟨[some 4, some 9], 2, 0⟩ : Vec Nat) 8 = some v' ∧ v'.lost = 0 + min 8 [some 4, some 9].length :=
  vector_realloc_loses _ [some 4, some 9] ⟨[], rfl, rfl, by simp⟩ 8 (by decide)

omit [DecidableEq T] in
/-- C55, the part that holds: operations that do not reallocate lose nothing. Missing: every reallocation. -/
theorem vector_lifetime_partial (triv : Bool) (v : Vec T) (l : List (Option T)) (h : Rep triv v l) :
    (∀ it x, it ≤ l.length → v.sized < v.buf.length → ∃ v', insertOne triv v it (.val x) = some v' ∧ v'.lost = v.lost) ∧
    (∀ it, it < l.length → ∃ v', FVec.eraseAt triv v it = some v' ∧ v'.lost = v.lost) ∧
    (∀ a b, a < b → b ≤ l.length → ∃ v', FVec.eraseRange triv v a b = some v' ∧ v'.lost = v.lost) ∧
    (∃ v', FVec.popBack triv v = some v' ∧ v'.lost = v.lost) := by
  refine ⟨fun it x hit hroom => ?_, fun it hit => ?_, fun a b hab hb => ?_, ?_⟩
  · obtain ⟨v', e, -, hl⟩ := insertOne_rep triv v l h it hit x; exact ⟨v', e, hl hroom⟩
  · obtain ⟨v', e, -, hl⟩ := eraseAt_rep triv v l h it hit; exact ⟨v', e, hl⟩
  · obtain ⟨v', e, -, hl⟩ := eraseRange_rep triv v l h a b hab hb; exact ⟨v', e, hl⟩
  · obtain ⟨v', e, -, -, hl⟩ := popBack_rep triv v l h; exact ⟨v', e, hl⟩

end Verif.FVec
