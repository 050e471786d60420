import Verif.SkinAux
import Verif.SkinLemmas
import Mathlib.Algebra.Order.Field.Rat
import Mathlib.Algebra.Order.BigOperators.Group.List

/-!
# Reducing skin influences: theorems (C47)

The pairs of a vertex that are at least the minimum weight are `ps.filter fun p => min ≤ p.weight`.
-/

namespace Verif.Skin

variable {K : Type} [Field K] [LinearOrder K] [IsStrictOrderedRing K]

/-- C47: the influences of a vertex of which none is too weak and which are not too many stay as they are. -/
theorem unchanged {max : Nat} {min : K} {ps : List (Pair K)} (hw : ∀ p ∈ ps, min ≤ p.weight) (hn : ps.length ≤ max) : reduceVertex max min ps = some ps := by
  have h := (reduceLoop_nil max min ps).len
  have hf : (ps.filter fun p => decide (min ≤ p.weight)) = ps := by
    rw [List.filter_eq_self]
    intro p hp
    simpa using hw p hp
  rw [hf] at h
  simp only [reduceVertex]
  rw [if_neg (by omega)]

/-- C47: the influences of any other vertex become the strongest of those that are at least the minimum weight, as many as allowed, in
decreasing order; every weight is multiplied by the same factor, and the total stays the same. The weights from the minimum on must be positive,
and some influence must be left; what happens otherwise, see `zero_violated` and `total_violated`. -/
theorem reduced_partial {max : Nat} {min : K} {ps : List (Pair K)} (hpos : ∀ p ∈ ps, min ≤ p.weight → 0 < p.weight)
    (hex : (∃ p ∈ ps, ¬ min ≤ p.weight) ∨ max < ps.length) :
    ∃ kept dropped f, reduceVertex max min ps = some (kept.map fun p => { p with weight := p.weight * f }) ∧
      (kept ++ dropped).Perm (ps.filter fun p => decide (min ≤ p.weight)) ∧
      kept.length = Nat.min max (ps.filter fun p => decide (min ≤ p.weight)).length ∧
      kept.Pairwise (fun p q => q.weight ≤ p.weight) ∧ (∀ p ∈ kept, ∀ q ∈ dropped, q.weight ≤ p.weight) ∧
      (kept ≠ [] → total (kept.map fun p => { p with weight := p.weight * f }) = total ps) := by
  have h := reduceLoop_nil max min ps
  obtain ⟨d, hd, hle⟩ := h.perm
  have hlt : (reduceLoop max min ps []).length < ps.length := by
    rw [h.len]
    rcases hex with ⟨p, hp, hw⟩ | hlt
    · have : (ps.filter fun p => decide (min ≤ p.weight)).length < ps.length := by
        rw [List.length_filter_lt_length_iff_exists]
        exact ⟨p, hp, by simpa using hw⟩
      omega
    · omega
  refine ⟨reduceLoop max min ps [], d, total ps / total (reduceLoop max min ps []), ?_, hd, h.len, h.sorted, hle, ?_⟩
  · simp only [reduceVertex]
    rw [if_pos hlt]
    by_cases hn : reduceLoop max min ps [] = []
    · rw [if_pos hn, hn]; rfl
    · rw [if_neg hn, if_neg]
      refine ne_of_gt (total_pos hn ?_)
      intro p hp
      have hm := hd.subset (List.mem_append_left d hp)
      obtain ⟨h1, h2⟩ := List.mem_filter.mp hm
      exact hpos p h1 (by simpa using h2)
  · intro hn
    have hp : 0 < total (reduceLoop max min ps []) := by
      refine total_pos hn ?_
      intro p hp
      have hm := hd.subset (List.mem_append_left d hp)
      obtain ⟨h1, h2⟩ := List.mem_filter.mp hm
      exact hpos p h1 (by simpa using h2)
    rw [total_scale]
    exact mul_div_cancel₀ _ (ne_of_gt hp)

/-- C47: all vertices are treated alike, each by itself. -/
theorem each_vertex {max : Nat} {min : K} {vs : List (List (Pair K))} (hpos : ∀ ps ∈ vs, ∀ p ∈ ps, min ≤ p.weight → 0 < p.weight) :
    ∃ vs', reduceInfluences max min vs = some vs' ∧ vs'.length = vs.length ∧
      ∀ (i : Nat) (ps : List (Pair K)), vs[i]? = some ps → vs'[i]? = reduceVertex max min ps ∧ ∃ qs, vs'[i]? = some qs ∧ qs.length ≤ max ∧ qs.length ≤ ps.length := by
  have hdef : ∀ ps ∈ vs, ∃ qs, reduceVertex max min ps = some qs ∧ qs.length ≤ max ∧ qs.length ≤ ps.length := by
    intro ps hps
    by_cases hex : (∃ p ∈ ps, ¬ min ≤ p.weight) ∨ max < ps.length
    · obtain ⟨kept, dropped, f, e1, e2, e3, _⟩ := reduced_partial (hpos ps hps) hex
      have : (ps.filter fun p => decide (min ≤ p.weight)).length ≤ ps.length := List.length_filter_le _ _
      simp only [Nat.min_def] at e3
      exact ⟨_, e1, by simp; split at e3 <;> omega, by simp; split at e3 <;> omega⟩
    · have h1 : ∀ p ∈ ps, min ≤ p.weight := by
        intro p hp
        by_contra hn
        exact hex (Or.inl ⟨p, hp, hn⟩)
      exact ⟨ps, unchanged h1 (by omega), by omega, le_refl _⟩
  clear hpos
  induction vs with
  | nil => exact ⟨[], rfl, rfl, by simp⟩
  | cons ps vs ih =>
    obtain ⟨vs', e1, e2, e3⟩ := ih (fun ps h => hdef ps (by simp [h]))
    obtain ⟨qs, q1, q2, q3⟩ := hdef ps (by simp)
    refine ⟨qs :: vs', ?_, by simp [e2], ?_⟩
    · rw [reduceInfluences] at e1 ⊢
      rw [List.mapM_cons, q1, e1]
      rfl
    · intro i xs hi
      cases i with
      | zero => simp at hi; subst hi; exact ⟨by simp [q1], qs, by simp, q2, q3⟩
      | succ i => simpa using e3 i xs (by simpa using hi)

/-- Four influences, one too weak; two are kept. -/
def sample : List (Pair ℚ) := [⟨0, 1 / 2⟩, ⟨1, 1 / 10⟩, ⟨2, 1 / 8⟩, ⟨3, 1 / 4⟩]

example : (∀ p ∈ sample, 1 / 9 ≤ p.weight → 0 < p.weight) ∧ ((∃ p ∈ sample, ¬ 1 / 9 ≤ p.weight) ∨ 2 < sample.length) := by decide +kernel
example : reduceVertex 2 (1 / 9) sample = some [⟨0, 13 / 20⟩, ⟨3, 13 / 40⟩] := by decide +kernel
example : (∀ p ∈ sample, 0 ≤ p.weight) ∧ sample.length ≤ 4 := by decide +kernel

/-- C47 fails for influences that are all zero: the weights are divided by zero. -/
theorem zero_violated : ∃ ps : List (Pair ℚ), (∀ p ∈ ps, 0 ≤ p.weight) ∧ reduceVertex 1 0 ps = none :=
  ⟨[⟨0, 0⟩, ⟨1, 0⟩], by decide +kernel⟩

/-- C47 fails if all influences are weaker than the minimum: nothing is left, and the total is not kept. -/
theorem total_violated : ∃ ps : List (Pair ℚ), total ps = 1 ∧ reduceVertex 4 (1 / 2) ps = some [] :=
  ⟨[⟨0, 1 / 3⟩, ⟨1, 1 / 3⟩, ⟨2, 1 / 3⟩], by decide +kernel⟩

end Verif.Skin
