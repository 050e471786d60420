import Verif.StdAnimAux
import Verif.StdAnimLemmas

/-! # C127: animation curves in new coordinates -/

namespace Verif.FStd

open Verif.Geo Verif.FXform

noncomputable section

/-- C127, for points (translations, the position and the target of a look-at): at every time, an animated point is after the conversion where the point it was
is found in the new coordinates. Missing: curves that are not tame. -/
theorem point_curves_partial {c : Conv} {convOf : Nat → Conv} {twoD : Bool} {s : Animated} (h : s.Tame c convOf twoD) (n : Nat) {idx : Fin 3 → Nat}
    (hi : Function.Injective idx) (t : ℝ) (p : V3 ℝ) (hp : s.Shows twoD n idx t p) :
    (convertVect3L c convOf idx s).Shows twoD n idx t (c.moved p) := by
  rw [convertVect3L_eq]
  exact (vector_step h n true false hi).2.1 t p hp

/-- C127, for directions (axes of rotations and skews, the up direction of a look-at): at every time, an animated direction is turned. Missing: curves that are
not tame. -/
theorem direction_curves_partial {c : Conv} {convOf : Nat → Conv} {twoD : Bool} {s : Animated} (h : s.Tame c convOf twoD) (n : Nat) {idx : Fin 3 → Nat}
    (hi : Function.Injective idx) (t : ℝ) (d : V3 ℝ) (hd : s.Shows twoD n idx t d) :
    (convertVect3 c convOf idx s).Shows twoD n idx t (c.turn d) := by
  rw [convertVect3_eq, ← by_turn]
  exact (vector_step h n false false hi).2.1 t d hd

/-- C127, for scales: at every time, an animated scale has the converted factors. Missing: curves that are not tame. -/
theorem scale_curves_partial {c : Conv} {convOf : Nat → Conv} {twoD : Bool} {s : Animated} (h : s.Tame c convOf twoD) (n : Nat) {idx : Fin 3 → Nat}
    (hi : Function.Injective idx) (t : ℝ) (f : V3 ℝ) (hf : s.Shows twoD n idx t f) :
    (convertScale c convOf idx s).Shows twoD n idx t (c.turnScale f) := by
  rw [convertScale_eq]
  have e : c.by false true f = c.turnScale f := by simp [Conv.by, Conv.turnBy, V3.smul]
  rw [← e]
  exact (vector_step h n false true hi).2.1 t f hf

/-- C127, for lengths: at every time, an animated length is in the new unit, and other values are what they were. Missing: curves that are not tame. -/
theorem length_curves_partial {c : Conv} {convOf : Nat → Conv} {twoD : Bool} {s : Animated} (h : s.Tame c convOf twoD) (n k : Nat) (t : ℝ) :
    (∀ y, s.at twoD n k t = some y → (convertFl c convOf k s).at twoD n k t = some (c.factor * y)) ∧
      ∀ j, j ≠ k → (convertFl c convOf k s).at twoD n j t = s.at twoD n j t := by
  obtain ⟨-, h2, h3⟩ := float_step h n k
  exact ⟨fun y hy => by rw [h2, hy]; rfl, fun j hj => h3 j hj t⟩

/-- C127, for matrices: at every time, an animated matrix is the conversion of the matrix it was; by C122, it carries the points of the new coordinates as the old
matrix carried those of the old ones. Missing: curves that are not tame. -/
theorem matrix_curves_partial {c : Conv} {convOf : Nat → Conv} {twoD : Bool} {s : Animated} (h : s.Tame c convOf twoD) (n : Nat) (t : ℝ) (m : M44 ℝ)
    (hm : s.ShowsMatrix twoD n t m) : (convertMat44 c convOf s).ShowsMatrix twoD n t (convertMatrix c m) := (matrix_step h n hm).2

/-- C127, for the positions of a mesh: at every time, each animated position is where the position it was is found in the new coordinates. Missing: curves that
are not tame, and factors other than 1 that are taken for 1. -/
theorem position_curves_partial {c : Conv} (hc : c.Clear) {convOf : Nat → Conv} {twoD : Bool} {s : Animated} (h : s.Tame c convOf twoD) (n : Nat) {stride count : Nat}
    (hs : 3 ≤ stride) {j : Nat} (hj : j < count) (t : ℝ) (p : V3 ℝ) (hp : s.Shows twoD n (element stride j) t p) :
    (convertPositions c convOf stride count s).Shows twoD n (element stride j) t (c.moved p) := by
  rw [convertPositions]
  have h1 : ∃ s', (if c.hasAxis && decide (3 ≤ stride) then (List.range count).foldl (turnPosition c convOf stride) s else s) = s' ∧ s'.Tame c convOf twoD ∧
      s'.Shows twoD n (element stride j) t (c.turn p) := by
    by_cases ha : c.hasAxis = true
    · simp only [ha, hs, decide_true, Bool.and_self, if_true]
      obtain ⟨g1, g2, -⟩ := positions_turned n hs (t := t) (List.range count) List.nodup_range s h
      exact ⟨_, rfl, g1, g2 j (List.mem_range.mpr hj) p hp⟩
    · have e : c.turn p = p := by
        have : c.fn = .identity := by simpa [Conv.hasAxis] using ha
        rw [Conv.turn, this]; rfl
      rw [e]
      simp only [ha, Bool.false_and, Bool.false_eq_true, if_false]
      exact ⟨s, rfl, h, hp⟩
  obtain ⟨s', e, h', hp'⟩ := h1
  simp only [e]
  by_cases hl : c.hasLength = true
  · rw [if_pos hl]
    obtain ⟨-, g2, -⟩ := numbers_scaled n (t := t) (List.range (count * stride)) List.nodup_range s' h'
    have hin : ∀ i : Fin 3, element stride j i ∈ List.range (count * stride) := by
      intro i
      rw [List.mem_range, element]
      have := Nat.mul_le_mul_left stride (show j + 1 ≤ count from hj)
      rw [Nat.mul_add] at this
      rw [Nat.mul_comm count]
      omega
    exact ⟨g2 _ (hin 0) _ hp'.1, g2 _ (hin 1) _ hp'.2.1, g2 _ (hin 2) _ hp'.2.2⟩
  · rw [if_neg hl]
    have e1 : c.factor = 1 := by
      rcases hc with h | h
      · exact h
      · simp only [Conv.hasLength, equivalent, tolerance, Bool.not_eq_true', Bool.not_eq_false, Bool.and_eq_true] at hl
        have h1 := of_decide_eq_true hl.1
        have h2 := of_decide_eq_true hl.2
        exfalso
        rcases abs_cases (c.factor - 1) with ⟨e, -⟩ | ⟨e, -⟩ <;> rw [e] at h <;> linarith
    have : c.moved p = c.turn p := by simp [Conv.moved, e1, V3.smul]
    rw [this]
    exact hp'

example (t : ℝ) : (convertVect3L ⟨.yToZ, 100⟩ (fun _ => ⟨.yToZ, 100⟩) (row 0) sampleAnimated).Shows true 12 (row 0) t ⟨100 * 7, 100 * 9, 100 * (-1 * 8)⟩ :=
  point_curves_partial (sample_tame _) 12 (row_injective 0) t ⟨7, 8, 9⟩ (sample_shows t)

example (t : ℝ) : (convertVect3 ⟨.yToZ, 100⟩ (fun _ => ⟨.yToZ, 100⟩) (row 0) sampleAnimated).Shows true 12 (row 0) t ⟨7, 9, -1 * 8⟩ :=
  direction_curves_partial (sample_tame _) 12 (row_injective 0) t ⟨7, 8, 9⟩ (sample_shows t)

example (t : ℝ) : (convertScale ⟨.yToZ, 100⟩ (fun _ => ⟨.yToZ, 100⟩) (row 0) sampleAnimated).Shows true 12 (row 0) t ⟨7, 9, 1 * 8⟩ :=
  scale_curves_partial (sample_tame _) 12 (row_injective 0) t ⟨7, 8, 9⟩ (sample_shows t)

example (t : ℝ) : (convertFl ⟨.yToZ, 100⟩ (fun _ => ⟨.yToZ, 100⟩) 1 sampleAnimated).at true 12 1 t = some (100 * 8) :=
  (length_curves_partial (sample_tame _) 12 1 t).1 8 (sample_shows t).2.1

example (t : ℝ) : (convertMat44 ⟨.xToZ, 2⟩ (fun _ => ⟨.xToZ, 2⟩) sampleAnimated).ShowsMatrix true 12 t
    (convertMatrix ⟨.xToZ, 2⟩ ⟨7, 8, 9, 0, 0, 0, 0, 0, 0, 0, 0, 0, 0, 0, 0, 0⟩) :=
  matrix_curves_partial (sample_tame _) 12 t _ (by constructor <;> simp [Animated.Shows, sampleAnimated, Animated.at, row, still, Curve.evaluate])

example (t : ℝ) : (convertPositions ⟨.yToZ, 100⟩ (fun _ => ⟨.yToZ, 100⟩) 4 2 sampleAnimated).Shows true 12 (element 4 0) t ⟨100 * 7, 100 * 9, 100 * (-1 * 8)⟩ :=
  position_curves_partial (Or.inr (by norm_num)) (sample_tame _) 12 (by decide) (by decide) t ⟨7, 8, 9⟩ (sample_shows t)

/-- C127 does not hold for the curves of normals, tangents and binormals: whatever the stride, all normals but the first keep their curves as they are, so that
they are turned only until the curves are evaluated. -/
theorem normal_curves_violated {c : Conv} {convOf : Nat → Conv} {twoD : Bool} {s : Animated} (h : s.Tame c convOf twoD) (n : Nat) {stride count : Nat}
    (hs : 3 ≤ stride) {j : Nat} (hj : 1 ≤ j) (t : ℝ) (v : V3 ℝ) (hv : s.Shows twoD n (element stride j) t v) (hl : ∀ i, s.lists (element stride j i) ≠ []) :
    ∃ s', convertNormals c convOf stride count s = some s' ∧ s'.Shows twoD n (element stride j) t v := by
  obtain ⟨s', e, hk⟩ := normals_kept hs count h
  refine ⟨s', e, ?_⟩
  rw [shows_iff] at hv ⊢
  intro i
  have h3 : 3 ≤ element stride j i := by
    have := Nat.mul_le_mul_left stride hj
    simp only [element]
    omega
  obtain ⟨k1, k2⟩ := hk _ h3
  rw [← hv i]
  unfold Animated.at
  rw [k1]
  cases hl' : s.lists (element stride j i) with
  | nil => exact absurd hl' (hl i)
  | cons id l => 
    simp only
    rw [k2 id (by rw [hl']; exact List.mem_cons_self ..)]

example (t : ℝ) : ∃ s', convertNormals ⟨.yToZ, 1⟩ (fun _ => ⟨.yToZ, 1⟩) 3 2 normalAnimated = some s' ∧ s'.Shows true 12 (element 3 1) t ⟨7, 8, 9⟩ :=
  normal_curves_violated (normal_tame _) 12 (by decide) (le_refl 1) t _
    (by refine ⟨?_, ?_, ?_⟩ <;> simp [normalAnimated, sampleAnimated, Animated.at, element, still, Curve.evaluate])
    (by intro i; fin_cases i <;> simp [normalAnimated, sampleAnimated, element])

/-- C127 does not hold for a curve of an animation with an asset of its own that says nothing: the value is turned, the curve is not. -/
theorem animation_asset_violated : ∃ (s : Animated) (c c' : Conv), c = assetFunctors .y 1 [⟨some 1, some ⟨0, 0, 1⟩⟩] none ∧
    c' = assetFunctors .y 1 (entityAssets (some ⟨none, none⟩) ⟨some 1, some ⟨0, 0, 1⟩⟩) none ∧ s.Shows true 12 (row 0) 0 ⟨0, 1, 0⟩ ∧ c.moved ⟨0, 1, 0⟩ = ⟨0, 0, -1⟩ ∧
    (convertVect3L c (fun _ => c') (row 0) s).Shows true 12 (row 0) 0 ⟨0, 1, -1⟩ := by
  have e1 : assetFunctors .y 1 [⟨some 1, some ⟨0, 0, 1⟩⟩] none = ⟨.yToZ, 1⟩ := by
    have : convertVector (⟨0, 0, 1⟩ : V3 ℝ) = .z := by unfold convertVector equivalent3 equivalent tolerance; norm_num
    simp [assetFunctors, this, prepare, unitFactor]
  have e2 : assetFunctors .y 1 (entityAssets (some ⟨none, none⟩) ⟨some 1, some ⟨0, 0, 1⟩⟩) none = ⟨.identity, 1⟩ := by
    have : convertVector (⟨0, 0, 0⟩ : V3 ℝ) = .unknown := by unfold convertVector equivalent3 equivalent tolerance; norm_num
    simp [assetFunctors, entityAssets, this, prepare, unitFactor]
  refine ⟨raised, _, _, e1.symm, e2.symm, ?_, ?_, ?_⟩
  · refine ⟨?_, ?_, ?_⟩ <;> simp [raised, Animated.at, row, still, Curve.evaluate]
  · simp [Conv.moved, Conv.turn, Fn.apply, V3.smul]
  · have ht : (raised.put (row 0) ((⟨.yToZ, 1⟩ : Conv).lengthen ((⟨.yToZ, 1⟩ : Conv).turn (raised.get (row 0))))).Tame ⟨.identity, 1⟩ (fun _ => ⟨.identity, 1⟩) true :=
      ⟨(raised_tame ⟨.identity, 1⟩).apart, (raised_tame ⟨.identity, 1⟩).once, (raised_tame ⟨.identity, 1⟩).conv, (raised_tame ⟨.identity, 1⟩).keys⟩
    obtain ⟨h0, h1, -, h3, -⟩ := vector_lists ht true false (row_injective 0)
    rw [shows_iff]
    intro i
    have h1 := h1 i
    change _ = raised.lists (row 0 i) at h1
    change _ = _ at h1
    unfold convertVect3L Animated.at
    have hi : (⟨.identity, 1⟩ : Conv).fn.target i = i := rfl
    rw [hi] at h1
    rw [h1, h0]
    fin_cases i
    · simp [raised, row, Animated.put, Animated.get, Conv.turn, Conv.lengthen, Fn.apply, V3.smul, comp]
    · have := h3 1 7 (by simp [raised, row, Animated.put])
      simp only [raised, row] at this ⊢
      simp only [Fin.mk_one, if_true]
      rw [this]
      simp [Animated.put, scaleCurve, still, Curve.convertValues, Curve.convertHeights, Curve.convertOutputs, Curve.evaluate, rate, Fn.sgn, comp]
    · simp [raised, row, Animated.put, Animated.get, Conv.turn, Conv.lengthen, Fn.apply, V3.smul, comp]

/-- A point whose first two components are animated by the same curve. -/
def diagonal : Animated := ⟨fun k => if k = 2 then 0 else 1, fun k => if k = 0 ∨ k = 1 then [7] else [], fun _ => still 1⟩

/-- C127 does not hold for a curve that animates two components: it is converted twice. -/
theorem shared_curve_violated : ∃ (s : Animated) (c : Conv), s.Shows true 12 (row 0) 0 ⟨1, 1, 0⟩ ∧ c.moved ⟨1, 1, 0⟩ = ⟨100, 100, 0⟩ ∧
    (convertVect3L c (fun _ => c) (row 0) s).Shows true 12 (row 0) 0 ⟨10000, 10000, 0⟩ := by
  refine ⟨diagonal, ⟨.identity, 100⟩, ?_, ?_, ?_⟩
  · refine ⟨?_, ?_, ?_⟩ <;> simp [diagonal, Animated.at, row, still, Curve.evaluate]
  · simp [Conv.moved, Conv.turn, Fn.apply, V3.smul]
  · have hc : ∀ l : List Nat, ∀ id ∈ l, (fun _ : Nat => (⟨.identity, 100⟩ : Conv)) id = ⟨.identity, 100⟩ := fun _ _ _ => rfl
    have l0 : diagonal.lists (row 0 0) = [7] := by simp [diagonal, row]
    have l1 : diagonal.lists (row 0 1) = [7] := by simp [diagonal, row]
    have l2 : diagonal.lists (row 0 2) = [] := by simp [diagonal, row]
    unfold convertVect3L convertVector3
    simp only [Animated.remove, Animated.put, l0, l1, l2, List.foldl_nil]
    rw [one_fold true false (row 0) 0 _ [7] (by simp) (hc _), one_fold true false (row 0) 1 _ [7] (by simp) (hc _)]
    refine ⟨?_, ?_, ?_⟩ <;>
      simp [Animated.at, row, Fn.target, scaled, diagonal, scaleCurve, still, Curve.convertValues, Curve.convertHeights, Curve.convertOutputs, Curve.evaluate, Fn.sgn,
        Animated.get, Conv.turn, Conv.lengthen, Fn.apply, V3.smul] <;> norm_num

end

end Verif.FStd
