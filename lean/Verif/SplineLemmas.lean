import Mathlib.Tactic.Ring
import Mathlib.Tactic.Linarith
import Mathlib.Tactic.FieldSimp
import Mathlib.Tactic.Module
import Mathlib.Topology.Order.IntermediateValue
import Mathlib.Topology.Algebra.Ring.Real
import Mathlib.Topology.Algebra.Order.Field
import Mathlib.Analysis.Convex.Segment
import Verif.SplineSpec

/-! # Lemmas on splines -/

namespace Verif.FSpline

variable {P K : Type}

section curves

theorem line_at [Field K] [AddCommGroup P] [Module K P] (p q : P) (t : K) :
    (⟨p, p, q, q⟩ : Seg P).at t = p + (3 * t ^ 2 - 2 * t ^ 3) • (q - p) := by
  simp only [Seg.at]
  module

theorem smooth_le [Field K] [LinearOrder K] [IsStrictOrderedRing K] {t : K} (h0 : 0 ≤ t) (h1 : t ≤ 1) :
    0 ≤ 3 * t ^ 2 - 2 * t ^ 3 ∧ 3 * t ^ 2 - 2 * t ^ 3 ≤ 1 := by
  constructor
  · have : 3 * t ^ 2 - 2 * t ^ 3 = t ^ 2 * (3 - 2 * t) := by ring
    rw [this]
    exact mul_nonneg (sq_nonneg t) (by linarith)
  · have : 1 - (3 * t ^ 2 - 2 * t ^ 3) = (1 - t) ^ 2 * (1 + 2 * t) := by ring
    have h := mul_nonneg (sq_nonneg (1 - t)) (by linarith : (0:K) ≤ 1 + 2 * t)
    linarith

theorem smooth_mono [Field K] [LinearOrder K] [IsStrictOrderedRing K] {s t : K} (h0 : 0 ≤ s) (hst : s ≤ t) (h1 : t ≤ 1) :
    3 * s ^ 2 - 2 * s ^ 3 ≤ 3 * t ^ 2 - 2 * t ^ 3 := by
  have e : (3 * t ^ 2 - 2 * t ^ 3) - (3 * s ^ 2 - 2 * s ^ 3) = (t - s) * (3 * (t * (1 - t) + s * (1 - s)) + (t - s) ^ 2) := by ring
  have h2 : 0 ≤ t * (1 - t) := mul_nonneg (le_trans h0 hst) (by linarith)
  have h3 : 0 ≤ s * (1 - s) := mul_nonneg h0 (by linarith)
  have := mul_nonneg (sub_nonneg.mpr hst) (add_nonneg (mul_nonneg (by norm_num : (0:K) ≤ 3) (add_nonneg h2 h3)) (sq_nonneg (t - s)))
  linarith

theorem smooth_onto {y : ℝ} (h0 : 0 ≤ y) (h1 : y ≤ 1) : ∃ t : ℝ, 0 ≤ t ∧ t ≤ 1 ∧ 3 * t ^ 2 - 2 * t ^ 3 = y := by
  have hc : ContinuousOn (fun t : ℝ => 3 * t ^ 2 - 2 * t ^ 3) (Set.Icc 0 1) := by
    apply Continuous.continuousOn
    fun_prop
  have hy : y ∈ Set.Icc ((fun t : ℝ => 3 * t ^ 2 - 2 * t ^ 3) 0) ((fun t : ℝ => 3 * t ^ 2 - 2 * t ^ 3) 1) := by
    constructor
    · simpa using h0
    · norm_num
      exact h1
  obtain ⟨t, ht, e⟩ := intermediate_value_Icc (by norm_num : (0:ℝ) ≤ 1) hc hy
  exact ⟨t, ht.1, ht.2, e⟩

theorem line_image {P : Type} [AddCommGroup P] [Module ℝ P] (p q : P) :
    {x | ∃ t : ℝ, 0 ≤ t ∧ t ≤ 1 ∧ (⟨p, p, q, q⟩ : Seg P).at t = x} = segment ℝ p q := by
  rw [segment_eq_image']
  ext x
  constructor
  · rintro ⟨t, h0, h1, e⟩
    rw [line_at] at e
    exact ⟨_, smooth_le h0 h1, e⟩
  · rintro ⟨y, ⟨h0, h1⟩, e⟩
    obtain ⟨t, a, b, c⟩ := smooth_onto h0 h1
    refine ⟨t, a, b, ?_⟩
    rw [line_at, c]
    exact e

end curves

section nurbs

variable [Field K] [LinearOrder K]

/-- The knot vector of the converted segments. -/
abbrev knots8 : List K := [0, 0, 0, 0, 1, 1, 1, 1]

theorem basis3 {t : K} (h0 : 0 ≤ t) (h1 : t < 1) :
    basis knots8 3 0 t = (1 - t) ^ 3 ∧ basis knots8 3 1 t = 3 * t * (1 - t) ^ 2 ∧ basis knots8 3 2 t = 3 * t ^ 2 * (1 - t)
      ∧ basis knots8 3 3 t = t ^ 3 := by
  have n0 : ¬ t < 0 := not_lt.mpr h0
  have n1 : ¬ (1 ≤ t) := not_le.mpr h1
  refine ⟨?_, ?_, ?_, ?_⟩ <;>
    simp [basis, h0, h1, n0, n1] <;> ring

theorem weight3 {t : K} (h0 : 0 ≤ t) (h1 : t < 1) : weightAt 3 [1, 1, 1, 1] knots8 t = 1 := by
  obtain ⟨e0, e1, e2, e3⟩ := basis3 h0 h1
  simp only [weightAt, List.length_cons, List.length_nil, List.range_succ, List.range_zero, List.nil_append, List.map_append, List.map_cons, List.map_nil, List.sum_append, List.sum_cons, List.sum_nil,
    List.getD_cons_zero, List.getD_cons_succ, zero_add, Nat.reduceAdd, e0, e1, e2, e3]
  ring

theorem nurbsOf_same [AddCommGroup P] [Module K P] (a b c d : P) : SameCurve K (⟨a, b, c, d⟩ : Seg P) (nurbsOf a b c d : Spline P K) := by
  refine ⟨rfl, 3, [1, 1, 1, 1], knots8, rfl, ?_⟩
  intro t h0 h1
  refine ⟨rfl, rfl, ?_, ?_⟩
  · rw [weight3 h0 h1]
    exact one_ne_zero
  · rw [weight3 h0 h1]
    obtain ⟨e0, e1, e2, e3⟩ := basis3 h0 h1
    simp only [nurbsOf, List.length_cons, List.length_nil, List.range_succ, List.range_zero, List.nil_append, List.map_append, List.map_cons, List.map_nil, List.sum_append, List.sum_cons, List.sum_nil,
      List.getD_cons_zero, List.getD_cons_succ, zero_add, add_zero, Nat.reduceAdd, e0, e1, e2, e3, one_smul, one_mul, Seg.at]

end nurbs

section lists

theorem segments_length : ∀ (n : Nat) (l : List P), l.length ≤ n → (segments l).length = (l.length - 1) / 3
  | 0, [], _ => by simp [segments]
  | n + 1, [], _ => by simp [segments]
  | n + 1, [_], _ => by simp [segments]
  | n + 1, [_, _], _ => by simp [segments]
  | n + 1, [_, _, _], _ => by simp [segments]
  | n + 1, a :: b :: c :: d :: l, h => by
    have ih := segments_length n (d :: l) (by simp only [List.length_cons] at h ⊢; omega)
    simp only [segments, List.length_cons, ih]
    omega

/-- The loop makes the segments of the vertices from `i` on. -/
theorem nurbsLoop_eq [Zero K] [One K] (cvs : List P) : ∀ (n i : Nat), i + 3 * n + 1 ≤ cvs.length →
    nurbsLoop cvs n i = some (((segments (cvs.drop i)).take n).map fun s => (nurbsOf s.a s.b s.c s.d : Spline P K))
  | 0, i, _ => by simp [nurbsLoop]
  | n + 1, i, h => by
    have ih := nurbsLoop_eq cvs n (i + 3) (by omega)
    have e0 : cvs[i]? = some cvs[i] := List.getElem?_eq_getElem (by omega)
    have e1 : cvs[i + 1]? = some cvs[i + 1] := List.getElem?_eq_getElem (by omega)
    have e2 : cvs[i + 2]? = some cvs[i + 2] := List.getElem?_eq_getElem (by omega)
    have e3 : cvs[i + 3]? = some cvs[i + 3] := List.getElem?_eq_getElem (by omega)
    have d3 : cvs.drop (i + 3) = cvs[i + 3] :: cvs.drop (i + 4) := List.drop_eq_getElem_cons (by omega)
    have d : cvs.drop i = cvs[i] :: cvs[i + 1] :: cvs[i + 2] :: cvs[i + 3] :: cvs.drop (i + 4) := by
      rw [List.drop_eq_getElem_cons (by omega), List.drop_eq_getElem_cons (by omega), List.drop_eq_getElem_cons (by omega), d3]
    rw [nurbsLoop, e0, e1, e2, e3, ih, d, d3]
    rfl

/-- The NURBS splines of segments. -/
def nurbsList (K : Type) [Zero K] [One K] (l : List (Seg P)) : List (Spline P K) := l.map fun s => nurbsOf s.a s.b s.c s.d

theorem toNURBs_open [Zero K] [One K] (s : Spline P K) (h : s.closed = false) : toNURBs s = some (nurbsList K (segments s.cvs)) := by
  simp only [toNURBs, h, Bool.not_false, if_true]
  rcases Nat.eq_zero_or_pos s.cvs.length with e | e
  · rw [List.length_eq_zero_iff.mp e]
    simp [nurbsLoop, segments, nurbsList]
  · rw [nurbsLoop_eq s.cvs _ 0 (by omega), List.drop_zero, List.take_of_length_le (by rw [segments_length _ _ le_rfl])]
    rfl

theorem segments_take : ∀ (m : Nat) (l x : List P), l.length = 3 * m + 1 → (segments (l ++ x)).take m = segments l
  | 0, [a], x, _ => by simp [segments]
  | m + 1, a :: b :: c :: d :: l, x, h => by
    have ih := segments_take m (d :: l) x (by simp only [List.length_cons] at h ⊢; omega)
    simp only [List.cons_append, segments, List.take_succ_cons]
    rw [← ih]
    rfl
  | m + 1, [], x, h => by simp at h
  | m + 1, [_], x, h => by simp at h
  | m + 1, [_, _], x, h => by simp at h
  | m + 1, [_, _, _], x, h => by simp at h; omega
  | 0, [], x, h => by simp at h
  | 0, _ :: _ :: _, x, h => by simp at h

theorem segments_snoc : ∀ (m : Nat) (y : List P) (p b c d : P), (y ++ [p]).length = 3 * m + 1 →
    segments (y ++ [p] ++ [b, c, d]) = segments (y ++ [p]) ++ [⟨p, b, c, d⟩]
  | 0, [], p, b, c, d, _ => by simp [segments]
  | 0, _ :: _, p, b, c, d, h => by simp at h
  | m + 1, [], p, b, c, d, h => by simp at h
  | m + 1, [_], p, b, c, d, h => by simp at h
  | m + 1, [_, _], p, b, c, d, h => by simp at h; omega
  | m + 1, [x1, x2, x3], p, b, c, d, h => by
    have e : m = 0 := by simp at h; omega
    subst e
    simp [segments]
  | m + 1, x1 :: x2 :: x3 :: x4 :: l, p, b, c, d, h => by
    have ih := segments_snoc m (x4 :: l) p b c d (by simp only [List.length_append, List.length_cons, List.length_nil] at h ⊢; omega)
    simp only [List.cons_append, segments] at ih ⊢
    rw [ih]

theorem toNURBs_closed [Zero K] [One K] (s : Spline P K) (h : s.closed = true) {k : Nat} (hk : s.cvs.length = 3 * (k + 1)) :
    toNURBs s = some (nurbsList K (loopSegments s.cvs)) := by
  obtain ⟨c, e⟩ : ∃ c, s.cvs = c := ⟨_, rfl⟩
  rw [e] at hk
  simp only [toNURBs, h, e, Bool.not_true, Bool.false_eq_true, if_false]
  match c, hk with
  | i :: q :: l, hk =>
    have hne : (q :: l) ≠ [] := by simp
    obtain ⟨y', o, ey⟩ : ∃ y' o, q :: l = y' ++ [o] := ⟨_, _, (List.dropLast_append_getLast hne).symm⟩
    have hl : y'.length = 3 * k + 1 := by
      have := congrArg List.length ey
      simp only [List.length_cons, List.length_append, List.length_nil] at this hk
      omega
    have hne' : y' ≠ [] := by
      intro e
      rw [e] at hl
      simp at hl
    obtain ⟨y, p, ep⟩ : ∃ y p, y' = y ++ [p] := ⟨_, _, (List.dropLast_append_getLast hne').symm⟩
    subst ep
    have hy : y.length = 3 * k := by simp at hl; omega
    rw [hk]
    have e1 : 3 * (k + 1) / 3 - 1 = k := by omega
    rw [e1, nurbsLoop_eq _ _ _ (by rw [hk]; omega)]
    rw [List.drop_succ_cons, List.drop_zero, ey, segments_take k (y ++ [p]) [o] hl]
    have g0 : (i :: (y ++ [p] ++ [o]))[3 * (k + 1) - 2]? = some p := by
      have : 3 * (k + 1) - 2 = y.length + 1 := by omega
      rw [this, List.getElem?_cons_succ, List.append_assoc, List.getElem?_append_right le_rfl]
      simp
    have g1 : (i :: (y ++ [p] ++ [o]))[3 * (k + 1) - 1]? = some o := by
      have : 3 * (k + 1) - 1 = (y ++ [p]).length + 1 := by simp; omega
      rw [this, List.getElem?_cons_succ, List.getElem?_append_right le_rfl]
      simp
    have g3 : (i :: (y ++ [p] ++ [o]))[1]? = some q := by
      rw [← ey]
      rfl
    rw [g0, g1, g3]
    have e2 : loopSegments (i :: (y ++ [p] ++ [o])) = segments (y ++ [p]) ++ [⟨p, o, i, q⟩] := by
      rw [← segments_snoc k y p o i q hl, ← ey]
      simp only [loopSegments]
      rw [ey]
      simp
    rw [e2]
    simp only [Option.bind_some, if_neg (by omega : ¬ 3 * (k + 1) < 2), List.getElem?_cons_zero, Option.map_some, nurbsList, List.map_append, List.map_cons, List.map_nil]

theorem open_segments (count : Nat) : ∀ (l : List P) (p : P) (i : Nat), 1 ≤ i → i + l.length = count → l ≠ [] →
    segments (p :: p :: bezierCVs false count l i) = (sides (p :: l)).map fun s => ⟨s.1, s.1, s.2, s.2⟩
  | [], _, _, _, _, h => absurd rfl h
  | [z], p, i, hi, hc, _ => by
    have e : i = count - 1 := by simp at hc; omega
    simp [bezierCVs, e, segments, sides]
  | z :: y :: r, p, i, hi, hc, _ => by
    have ih := open_segments count (y :: r) z (i + 1) (by omega) (by simp only [List.length_cons] at hc ⊢; omega) (by simp)
    have n1 : (i == 0) = false := by simp; omega
    have n2 : (i == count - 1) = false := by simp only [List.length_cons] at hc; simp; omega
    rw [bezierCVs]
    simp only [n1, n2, Bool.not_false, Bool.or_self, Bool.and_false, Bool.false_eq_true, if_false, List.cons_append, List.nil_append, segments, sides, List.map_cons]
    rw [ih]
    simp [sides]

theorem toBezier_open (l : List P) (h : 2 ≤ l.length) :
    segments (bezierCVs false l.length l 0) = (sides l).map fun s => ⟨s.1, s.1, s.2, s.2⟩ := by
  match l, h with
  | a :: b :: r, _ =>
    have := open_segments (a :: b :: r).length (b :: r) a 1 le_rfl (by simp only [List.length_cons]; omega) (by simp)
    rw [bezierCVs]
    simpa using this

theorem closed_segments (count : Nat) : ∀ (l : List P) (p z : P) (i : Nat),
    segments (p :: p :: (bezierCVs true count l i ++ [z, z])) = (sides (p :: (l ++ [z]))).map fun s => ⟨s.1, s.1, s.2, s.2⟩
  | [], _, _, _ => by simp [bezierCVs, segments, sides]
  | y :: r, p, z, i => by
    have ih := closed_segments count r y z (i + 1)
    rw [bezierCVs]
    simp only [Bool.not_true, Bool.false_and, Bool.false_eq_true, if_false, List.cons_append, List.nil_append, segments, sides, List.map_cons]
    rw [ih]

theorem toBezier_closed (l : List P) :
    loopSegments (bezierCVs true l.length l 0) = (loopSides l).map fun s => ⟨s.1, s.1, s.2, s.2⟩ := by
  match l with
  | [] => rfl
  | a :: r =>
    have := closed_segments (a :: r).length r a a 1
    rw [bezierCVs]
    simp only [Bool.not_true, Bool.false_and, Bool.false_eq_true, if_false, List.cons_append, List.nil_append, loopSegments, loopSides]
    exact this

theorem bezierCVs_length_closed (count : Nat) : ∀ (l : List P) (i : Nat), (bezierCVs true count l i).length = 3 * l.length
  | [], _ => rfl
  | _ :: l, i => by
    rw [bezierCVs]
    simp [bezierCVs_length_closed count l (i + 1)]
    omega

end lists

end Verif.FSpline
