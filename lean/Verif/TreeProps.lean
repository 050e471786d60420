import Verif.TreeAux
import Verif.TreeIter

/-!
# Properties of `fm::map` / `fm::set` (C01, C02, C03, C04)

Specification: a map is a partial function; a history is a list of operations.
-/

namespace Verif.FTree

variable {K V : Type} [LinearOrder K]

/-! ### The refinement -/

/-! ### C01 -/

/-- C01. Any history runs without undefined behaviour, and afterwards `find(k)` is the entry the history
means for `k` (the value last stored and not erased since), or `end()`. -/
theorem map_refines_finite_map (ops : List (Op K V)) :
    ∃ m, run ops = some m ∧ ∀ k, find k m.t = (spec ops k).map fun v => (k, v) := by
  obtain ⟨m, e, hi, hm⟩ := rep_run ops
  refine ⟨m, e, fun k => ?_⟩
  cases hs : spec ops k with
  | some v => rw [Option.map_some, find_mem k m hi]; exact ⟨(hm k v).mpr hs, rfl⟩
  | none =>
    rw [Option.map_none, find_none k m hi]
    rintro ⟨x, y⟩ he rfl
    have := (hm x y).mp he
    rw [hs] at this; cases this

/-- C01, one step at a time: an operation on one key does not change what is found for the others. -/
theorem map_other_keys_untouched (ops : List (Op K V)) (op : Op K V) (k : K)
    (hop : match op with | .insert k' _ => k' ≠ k | .erase k' => k' ≠ k | .put k' _ _ => k' ≠ k | .clear => False) :
    ∃ m m', run ops = some m ∧ step m op = some m' ∧ find k m'.t = find k m.t := by
  obtain ⟨m, e, h⟩ := rep_run ops
  obtain ⟨m', e', h'⟩ := rep_step m _ h op
  refine ⟨m, m', e, e', ?_⟩
  have hf : ∀ (m : Map K V) (f : K → Option V), Rep m f → find k m.t = (f k).map fun v => (k, v) := by
    rintro m f ⟨hi, hm⟩
    cases hs : f k with
    | some v => rw [Option.map_some, find_mem k m hi]; exact ⟨(hm k v).mpr hs, rfl⟩
    | none =>
      rw [Option.map_none, find_none k m hi]
      rintro ⟨x, y⟩ he rfl
      have := (hm x y).mp he
      rw [hs] at this; cases this
  rw [hf m' _ h', hf m _ h]
  cases op <;> simp only [specStep] at * <;> rw [if_neg (Ne.symm hop)]

/-- Non-vacuity: a history with overwriting, erasure (with a rotation) and `operator[]`. -/
example : ∃ m, run ([.insert 5 50, .insert 3 30, .insert 8 80, .insert 9 90, .put 3 0 31, .erase 5, .erase 5] :
      List (Op Nat Nat)) = some m ∧ find 3 m.t = some (3, 31) ∧ find 5 m.t = none ∧ find 9 m.t = some (9, 90) := by
  refine ⟨_, rfl, ?_⟩
  decide

/-! ### C02 -/

/-- C02. After any history every recorded balance factor is exact and in -1..1, the depth is bounded by the
Fibonacci law and hence by `2 * log2 (entries + 1)`, and `find` compares with at most that many entries. -/
theorem map_stays_balanced (ops : List (Op K V)) :
    ∃ m, run ops = some m ∧ m.t.Bal ∧ Nat.fib (m.t.height + 2) ≤ m.t.count + 1 ∧
      2 ^ m.t.height ≤ (m.t.count + 1) ^ 2 ∧ ∀ k, findSteps k m.t ≤ m.t.height := by
  obtain ⟨m, e, hi, hm⟩ := rep_run ops
  have hf := fib_le_count m.t hi.bal
  refine ⟨m, e, hi.bal, hf, ?_, fun k => findSteps_le k m.t⟩
  exact le_trans (two_pow_le_fib_sq _).1 (Nat.pow_le_pow_left hf 2)

/-- Non-vacuity: seven increasing insertions give a perfectly balanced tree of depth 3. -/
example : ∃ m, run ((List.range 7).map fun i => Op.insert i i) = some m ∧ m.t.height = 3 ∧ m.t.count = 7 := by
  refine ⟨_, rfl, ?_⟩
  decide

/-! ### C03 -/

/-- Repeat an iterator move, stopping on undefined behaviour. -/
def moves (f : Pos K V → Option (Pos K V)) : Nat → Option (Pos K V) → Option (Pos K V)
  | 0, p => p
  | n + 1, p => (moves f n p).bind f

/-- C03. After any history there is a list of entries, strictly increasing in the key and holding exactly the
entries of the map, such that `++` from `begin()` visits it from front to back and then stands at `end()`, and `--` from `last()` visits it
from back to front. -/
theorem map_iteration_sorted (ops : List (Op K V)) :
    ∃ m, run ops = some m ∧ ∃ es : List (K × V),
      es.Pairwise (fun a b => a.1 < b.1) ∧ (∀ k v, (k, v) ∈ es ↔ spec ops k = some v) ∧
      (∀ i, i < es.length → ∃ p, moves (next m.t) i (begin m.t) = some p ∧ p ≠ .endPos ∧ p.entry = es[i]?) ∧
      moves (next m.t) es.length (begin m.t) = some .endPos ∧
      (∀ i, i < es.length → ∃ p, moves prev i (last m.t) = some p ∧ p ≠ .endPos ∧ p.entry = es[es.length - 1 - i]?) := by
  obtain ⟨m, e, hi, hm⟩ := rep_run ops
  have hlen := toList_length m.t
  have fwd : ∀ i, i ≤ m.t.count → moves (next m.t) i (begin m.t) = some (posAt m.t i) := by
    intro i
    induction i with
    | zero => intro _; exact begin_posAt m.t
    | succ i ih => intro h; simp only [moves]; rw [ih (by omega)]; exact next_posAt m.t i (by omega)
  have bwd : ∀ i, i < m.t.count → moves prev i (last m.t) = some (posAt m.t (m.t.count - 1 - i)) := by
    intro i
    induction i with
    | zero => intro _; exact last_posAt m.t
    | succ i ih =>
      intro h; simp only [moves]; rw [ih (by omega), Option.bind_some, prev_posAt m.t _ (by omega), if_neg (by omega)]
      congr 2
  refine ⟨m, e, m.t.toList, ?_, hm, ?_, ?_, ?_⟩
  · have := hi.sorted; rwa [Sorted, List.pairwise_map] at this
  · intro i h
    refine ⟨_, fwd i (by omega), ?_, posAt_entry _ _⟩
    rw [ne_eq, posAt_end]; omega
  · rw [fwd _ (by omega), posAt_ge _ _ (by omega)]
  · intro i h
    refine ⟨_, bwd i (by omega), ?_, ?_⟩
    · rw [ne_eq, posAt_end]; omega
    · rw [posAt_entry, hlen]

/-- C03, second part: `--` undoes `++` at every position but the last one (after which `++` reaches `end()`,
from which `--` is not allowed: `root->parent` is NULL). -/
theorem map_prev_next (ops : List (Op K V)) :
    ∃ m, run ops = some m ∧ ∀ i p, moves (next m.t) i (begin m.t) = some p → i + 1 < m.t.count →
      ∃ q, next m.t p = some q ∧ prev q = some p := by
  obtain ⟨m, e, hi, hm⟩ := rep_run ops
  refine ⟨m, e, fun i p hp h => ?_⟩
  have fwd : ∀ i, i ≤ m.t.count → moves (next m.t) i (begin m.t) = some (posAt m.t i) := by
    intro i
    induction i with
    | zero => intro _; exact begin_posAt m.t
    | succ i ih => intro h; simp only [moves]; rw [ih (by omega)]; exact next_posAt m.t i (by omega)
  rw [fwd i (by omega)] at hp
  cases hp
  exact ⟨_, next_posAt m.t i (by omega), by rw [prev_posAt m.t _ h, if_neg (by omega)]; rfl⟩

omit [LinearOrder K] in
/-- Going back from `end()` dereferences NULL, whatever the map (the C++ standard containers allow it). -/
theorem map_prev_end_undefined : prev (.endPos : Pos K V) = none := rfl

/-- Non-vacuity: three entries, walked forward and back. -/
example : ∃ m, run ([.insert 2 "b", .insert 1 "a", .insert 3 "c"] : List (Op Nat String)) = some m ∧
    (moves (next m.t) 1 (begin m.t)).bind Pos.entry = some (2, "b") ∧
    (moves prev 2 (last m.t)).bind Pos.entry = some (1, "a") := by
  refine ⟨_, rfl, ?_⟩
  decide

/-! ### C04 -/

/-- C04. `size()` is the number of distinct keys present and `empty()` (`sized == 0`) says whether there is none. -/
theorem map_size_exact (ops : List (Op K V)) :
    ∃ m, run ops = some m ∧ ∃ ks : List K, ks.Nodup ∧ (∀ k, k ∈ ks ↔ spec ops k ≠ none) ∧
      m.sized = ks.length ∧ (m.sized = 0 ↔ ∀ k, spec ops k = none) := by
  obtain ⟨m, e, hi, hm⟩ := rep_run ops
  have hks : ∀ k, k ∈ m.t.toList.map Prod.fst ↔ spec ops k ≠ none := by
    intro k
    rw [List.mem_map]
    constructor
    · rintro ⟨⟨x, y⟩, h1, rfl⟩; rw [(hm x y).mp h1]; simp
    · intro h
      obtain ⟨v, hv⟩ := Option.ne_none_iff_exists'.mp h
      exact ⟨(k, v), (hm k v).mpr hv, rfl⟩
  refine ⟨m, e, m.t.toList.map Prod.fst, ?_, hks, by rw [hi.sized]; simp, ?_⟩
  · exact List.Pairwise.imp (fun h => ne_of_lt h) hi.sorted
  · rw [hi.sized]
    constructor
    · intro h0 k
      by_contra hne
      have h1 := (hks k).mpr hne
      have : m.t.toList = [] := List.length_eq_zero_iff.mp (by omega)
      rw [this] at h1; simp at h1
    · intro hall
      have : m.t.toList = [] := by
        rw [List.eq_nil_iff_forall_not_mem]
        rintro ⟨x, y⟩ h
        have := (hm x y).mp h
        rw [hall x] at this; cases this
      simp [this]

/-- C04, copies: assigning a map to another object gives an identical map whatever the target held. -/
theorem map_assign_copies (ops ops' : List (Op K V)) :
    ∃ m src, run ops = some m ∧ run ops' = some src ∧ m.assign src = some src := by
  obtain ⟨m, e, hi, hm⟩ := rep_run ops
  obtain ⟨m', e', hi', hm'⟩ := rep_run ops'
  refine ⟨m, m', e, e', ?_⟩
  rw [assign_spec m m' (by rw [hi.sized, toList_length]), ← toList_length, ← hi'.sized]

/-- Non-vacuity: a non-empty target and a source with two entries. -/
example : ∃ m src, run ([.insert 1 1] : List (Op Nat Nat)) = some m ∧
    run ([.insert 2 2, .insert 3 3, .erase 7] : List (Op Nat Nat)) = some src ∧ src.sized = 2 ∧
    (m.assign src).map (fun x => x.sized) = some 2 := by
  refine ⟨_, _, rfl, rfl, ?_⟩
  decide

end Verif.FTree
