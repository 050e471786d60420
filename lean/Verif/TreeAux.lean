import Verif.TreeTerms
import Verif.TreeIter

/-! # Lemmas for the properties in TreeProps -/

namespace Verif.FTree

variable {K V : Type} [LinearOrder K]

/-- The model state represents the partial function `f`. -/
def Rep (m : Map K V) (f : K → Option V) : Prop :=
  Inv m ∧ ∀ k v, (k, v) ∈ m.t.toList ↔ f k = some v

theorem rep_step (m : Map K V) (f : K → Option V) (h : Rep m f) (op : Op K V) :
    ∃ m', step m op = some m' ∧ Rep m' (specStep f op) := by
  obtain ⟨hi, hm⟩ := h
  cases op with
  | insert k v =>
    obtain ⟨m', e, hi', hm'⟩ := insert_spec m k v hi
    refine ⟨m', e, hi', fun x y => ?_⟩
    rw [hm', hm]; simp only [specStep, Prod.mk.injEq]
    by_cases hx : x = k <;> simp [hx, eq_comm]
  | erase k =>
    obtain ⟨m', e, hi', hm'⟩ := erase_spec m k hi
    refine ⟨m', e, hi', fun x y => ?_⟩
    rw [hm', hm]; simp only [specStep]
    by_cases hx : x = k <;> simp [hx]
  | put k d v =>
    obtain ⟨m', e, hi', hm'⟩ := indexAssign_spec m k d v hi
    refine ⟨m', e, hi', fun x y => ?_⟩
    rw [hm', hm]; simp only [specStep, Prod.mk.injEq]
    by_cases hx : x = k <;> simp [hx, eq_comm]
  | clear =>
    refine ⟨⟨.nil, 0⟩, clear_spec m (by rw [hi.sized, toList_length]), inv_empty, fun x y => ?_⟩
    simp [Tree.toList, specStep]

theorem rep_runFrom (ops : List (Op K V)) : ∀ (m : Map K V) (f : K → Option V), Rep m f →
    ∃ m', runFrom m ops = some m' ∧ Rep m' (ops.foldl specStep f) := by
  induction ops with
  | nil => intro m f h; exact ⟨m, rfl, h⟩
  | cons op ops ih =>
    intro m f h
    obtain ⟨m1, e1, h1⟩ := rep_step m f h op
    obtain ⟨m2, e2, h2⟩ := ih m1 _ h1
    exact ⟨m2, by simp [runFrom, e1, e2], h2⟩

theorem rep_run (ops : List (Op K V)) : ∃ m, run ops = some m ∧ Rep m (spec ops) :=
  rep_runFrom ops _ _ ⟨inv_empty, by simp [Map.empty, Tree.toList]⟩

omit [LinearOrder K] in
theorem fib_le_count (t : Tree K V) (h : t.Bal) : Nat.fib (t.height + 2) ≤ t.count + 1 := by
  induction t with
  | nil => simp [Tree.height, Tree.count]
  | node l k v w r ihl ihr =>
    simp only [Tree.Bal] at h
    have h1 := ihl h.1
    have h2 := ihr h.2.1
    simp only [Tree.height, Tree.count]
    have hf : Nat.fib (max l.height r.height + 1 + 2) =
        Nat.fib (max l.height r.height + 1) + Nat.fib (max l.height r.height + 2) := Nat.fib_add_two
    have m1 : Nat.fib (max l.height r.height + 1) ≤ Nat.fib (min l.height r.height + 2) :=
      Nat.fib_mono (by omega)
    rw [hf]
    rcases Nat.le_total l.height r.height with hle | hle
    · rw [max_eq_right hle] at m1 ⊢; rw [min_eq_left hle] at m1; omega
    · rw [max_eq_left hle] at m1 ⊢; rw [min_eq_right hle] at m1; omega

theorem two_pow_le_fib_sq (n : Nat) : 2 ^ n ≤ Nat.fib (n + 2) ^ 2 ∧ 2 ^ (n + 1) ≤ Nat.fib (n + 3) ^ 2 := by
  induction n with
  | zero => decide
  | succ n ih =>
    refine ⟨ih.2, ?_⟩
    have h1 : Nat.fib (n + 1 + 3) = Nat.fib (n + 2) + Nat.fib (n + 3) := Nat.fib_add_two
    have h2 : Nat.fib (n + 2) ≤ Nat.fib (n + 3) := Nat.fib_mono (by omega)
    have h3 : 2 * Nat.fib (n + 2) ≤ Nat.fib (n + 1 + 3) := by omega
    calc 2 ^ (n + 1 + 1) = 4 * 2 ^ n := by rw [pow_succ, pow_succ]; omega
      _ ≤ 4 * Nat.fib (n + 2) ^ 2 := Nat.mul_le_mul_left _ ih.1
      _ = (2 * Nat.fib (n + 2)) ^ 2 := by rw [Nat.mul_pow]
      _ ≤ Nat.fib (n + 1 + 3) ^ 2 := Nat.pow_le_pow_left h3 2

theorem findSteps_le (key : K) (t : Tree K V) : findSteps key t ≤ t.height := by
  induction t with
  | nil => simp [findSteps]
  | node l k v w r ihl ihr =>
    simp only [findSteps, Tree.height]
    split
    · omega
    · split <;> omega

end Verif.FTree
