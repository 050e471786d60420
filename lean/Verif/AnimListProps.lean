import Verif.AnimListLemmas

/-! # Properties of animatable list parameters -/

namespace Verif.FAnimList

variable {α : Type}

/-- C89. Along every history of legal calls (without a shrinking `resize(count, value)`), the list has the values it should have; its helpers are those of the
values still in the list, with the indices of their values, in order and each once; no call is undefined or endless. -/
theorem list_helpers_partial {s : State α} {a : List (Cell α)} (h : Reached s a) :
    s.values = a.map Prod.fst ∧ (s.helpers.map fun h => (h.elem, h.id)) = listed 0 a ∧ (a.filterMap Prod.snd).Nodup ∧
      ∀ op, Legal s.values.length op → NoShrink s.values.length op → ∃ s', step s op = some s' ∧ Reached s' (ideal s.next a op) := by
  have g := reached_good h
  refine ⟨g.rep.values, g.rep.helpers, g.nodup, fun op l n => ?_⟩
  obtain ⟨s', e, _⟩ := step_ok g.rep l n
  exact ⟨s', e, .step h l n e⟩

/-- Three values with helpers for the first and the last, and a value put before the last. -/
def sample : List (Op Nat) := [.pushBack 10, .pushBack 20, .pushBack 30, .get 2, .get 0, .insert 2 25, .pushFront 5, .erase 2]

example : (history (.empty, []) sample).map (fun p => (p.1.values, p.1.helpers.map fun h => (h.elem, h.id), p.2)) =
    some ([5, 10, 25, 30], [(1, 1), (3, 0)], [(5, none), (10, some 1), (25, none), (30, some 0)]) := by decide +kernel

/-- C89. Asking for the helper of a value gives the helper it has, and else a new one that no other value has. -/
theorem get_animated {s : State α} {a : List (Cell α)} (h : Reached s a) {i : Nat} {x : α} {o : Option Nat} (hi : a[i]? = some (x, o)) :
    ∃ r s', getAnimated s i = some (r, s') ∧ Reached s' (a.set i (x, some r)) ∧ (o = some r ∨ (o = none ∧ r ∉ a.filterMap Prod.snd)) := by
  have g := reached_good h
  have lt : i < a.length := (List.getElem?_eq_some_iff.1 hi).1
  have hvl : s.values.length = a.length := by rw [g.rep.values]; simp
  obtain ⟨r, s', e, h1, h2, h3, h4, h5⟩ := get_rep g.rep lt
  have st := Reached.step (op := .get i) (s' := s') h (by show i < s.values.length; omega) trivial (by simp [step, e])
  refine ⟨r, s', e, ?_, ?_⟩
  · cases o with
    | none =>
      simp only [ideal, hi] at st h2
      rw [List.getElem?_set_self lt] at h2
      simp only [Option.map_some, Option.some.injEq] at h2
      rwa [h2] at st
    | some id =>
      simp only [ideal, hi] at st h2
      simp only [Option.map_some, Option.some.injEq] at h2
      subst h2
      have : a.set i (x, some id) = a := by
        have := (List.getElem?_eq_some_iff.1 hi).2
        rw [← this, List.set_getElem_self]
      rwa [this]
  · cases o with
    | none =>
      right
      simp only [ideal, hi] at h2
      rw [List.getElem?_set_self lt] at h2
      simp only [Option.map_some, Option.some.injEq] at h2
      refine ⟨rfl, fun m => ?_⟩
      have := g.fresh r (mem_ids.1 m)
      omega
    | some id =>
      left
      simp only [ideal, hi] at h2
      simpa using h2

example : ((history (.empty, []) sample).bind fun p => (getAnimated p.1 1).map Prod.fst) = some 1 ∧
    ((history (.empty, []) sample).bind fun p => (getAnimated p.1 2).map Prod.fst) = some 2 := by decide +kernel

/-- C89. Without insertions and removals between helpers (unless the values get a new buffer), each helper points at the value it belongs to. Missing: those
changes, see `insert_pointer_violated` and `erase_pointer_violated`. -/
theorem pointers_partial {s : State α} {a : List (Cell α)} (h : TameReached s a) {i id : Nat} {x : α} (hi : a[i]? = some (x, some id)) :
    ∃ p ∈ s.helpers, p.id = id ∧ p.ptr = (s.block, i) ∧ s.values[i]? = some x := by
  obtain ⟨g, hp⟩ := tame_good h
  have ea : a = a.take i ++ (x, some id) :: a.drop (i + 1) := by
    obtain ⟨lt, e⟩ := List.getElem?_eq_some_iff.1 hi
    rw [← e, ← List.drop_eq_getElem_cons lt, List.take_append_drop]
  have lt : i < a.length := (List.getElem?_eq_some_iff.1 hi).1
  have m : ((i : Int), id) ∈ listed 0 a := by
    rw [ea, listed_append]
    simp only [listed, List.length_take, Nat.zero_add, List.mem_append, List.mem_cons]
    right
    left
    rw [Nat.min_eq_left (by omega)]
  have hh : s.helpers.map tag = listed 0 a := g.rep.helpers
  rw [← hh] at m
  obtain ⟨p, pm, pe⟩ := List.mem_map.1 m
  simp only [tag, Prod.mk.injEq] at pe
  refine ⟨p, pm, pe.2, ?_, ?_⟩
  · rw [hp p pm, pe.1]
    simp
  · rw [g.rep.values, List.getElem?_map, hi]
    rfl

/-- A history without changes between helpers: the values move to a new buffer, then away from the front. -/
def tame : List (Op Nat) := [.pushBack 10, .get 0, .pushBack 20, .get 1, .pushBack 30, .insert 1 15, .popFront]

example : ∃ s a, TameReached s a ∧ a = [(15, none), (20, some 1), (30, none)] ∧ s.block = 3 ∧ s.helpers = [⟨1, 1, (3, 1)⟩] :=
  ⟨⟨[15, 20, 30], 7, 3, [⟨1, 1, (3, 1)⟩], 2⟩, _, tameHistory_reached (ops := tame) (p := (.empty, [])) (q := (_, _)) .start (by decide +kernel), rfl, rfl, rfl⟩

/-- C89. An insertion between two helpers, with room in the buffer, leaves the second helper pointing at the new value instead of its own. -/
theorem insert_pointer_violated : ∃ (s : State Nat) (a : List (Cell Nat)), Reached s a ∧ a = [(10, some 0), (15, none), (20, some 1)] ∧
    s.helpers = [⟨0, 0, (s.block, 0)⟩, ⟨1, 2, (s.block, 1)⟩] := by
  exact ⟨⟨[10, 15, 20], 3, 2, [⟨0, 0, (2, 0)⟩, ⟨1, 2, (2, 1)⟩], 2⟩, _,
    history_reached (ops := [.pushBack 10, .pushBack 20, .get 0, .get 1, .insert 1 15]) (p := (.empty, [])) (q := (_, _)) .start (by decide +kernel), rfl, rfl⟩

/-- C89. A removal between two helpers leaves the second helper pointing at the place after its value, here past the end of the list. -/
theorem erase_pointer_violated : ∃ (s : State Nat) (a : List (Cell Nat)), Reached s a ∧ a = [(10, some 0), (30, some 1)] ∧
    s.helpers = [⟨0, 0, (s.block, 0)⟩, ⟨1, 1, (s.block, 2)⟩] := by
  exact ⟨⟨[10, 30], 3, 2, [⟨0, 0, (2, 0)⟩, ⟨1, 1, (2, 2)⟩], 2⟩, _,
    history_reached (ops := [.pushBack 10, .pushBack 20, .pushBack 30, .get 0, .get 2, .erase 1]) (p := (.empty, [])) (q := (_, _)) .start
      (by decide +kernel), rfl, rfl⟩

/-- C89. Shrinking with `resize(count, value)` releases the helper of the value that stays and keeps the helper of the value that goes. -/
theorem resize_value_violated : ∃ (s s' : State Nat) (a : List (Cell Nat)), Reached s a ∧ a = [(10, some 0), (20, some 1)] ∧
    step s (.resizeWith 1 0) = some s' ∧ s'.values = [10] ∧ s'.helpers.map (fun h => (h.elem, h.id)) = [(-1, 1)] := by
  exact ⟨⟨[10, 20], 3, 2, [⟨0, 0, (2, 0)⟩, ⟨1, 1, (2, 1)⟩], 2⟩, ⟨[10], 1, 3, [⟨1, -1, (2, 1)⟩], 2⟩, _,
    history_reached (ops := [.pushBack 10, .pushBack 20, .get 0, .get 1]) (p := (.empty, [])) (q := (_, _)) .start (by decide +kernel), rfl,
    by decide +kernel, rfl, rfl⟩

end Verif.FAnimList
