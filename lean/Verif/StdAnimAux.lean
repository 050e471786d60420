import Verif.StdAnimLemmas

/-! # Lemmas for the properties in StdAnimProps -/

namespace Verif.FStd

open Verif.Geo Verif.FXform

noncomputable section

/-- A curve with one key. -/
def still (y : ℝ) : Curve.CurveData ℝ := ⟨.constant, .constant, [⟨0, y, .linear, (0, 0), (0, 0), 0, 0, 0⟩]⟩

/-- A point whose first component is animated by the curve 7, the others by the curves 8 and 9. -/
def sampleAnimated : Animated := ⟨fun _ => 0, fun k => if k = 0 then [7] else if k = 1 then [8] else if k = 2 then [9] else [], fun id => still id⟩

theorem still_tame : ∀ y, Curve.NoTcbPair (still y).keys := by
  intro y i s e _ he
  simp [still] at he

theorem sample_tame (c : Conv) : sampleAnimated.Tame c (fun _ => c) true := by
  refine ⟨?_, ?_, fun _ _ _ => rfl, fun _ _ id _ => still_tame id⟩
  · intro j k hjk id hid
    simp only [sampleAnimated] at hid ⊢
    split at hid
    · simp only [List.mem_singleton] at hid
      subst hid
      split
      · omega
      · split
        · simp
        · split <;> simp
    · split at hid
      · simp only [List.mem_singleton] at hid
        subst hid
        split
        · simp
        · split
          · omega
          · split <;> simp
      · split at hid
        · simp only [List.mem_singleton] at hid
          subst hid
          split
          · simp
          · split
            · simp
            · split
              · omega
              · simp
        · simp at hid
  · intro k
    simp only [sampleAnimated]
    split
    · simp
    · split
      · simp
      · split <;> simp

theorem sample_shows (t : ℝ) : sampleAnimated.Shows true 12 (row 0) t ⟨7, 8, 9⟩ := by
  refine ⟨?_, ?_, ?_⟩ <;> simp [sampleAnimated, Animated.at, row, still, Curve.evaluate]

/-- The same numbers, as the second normal of a source. -/
def normalAnimated : Animated := ⟨fun _ => 0, fun k => if 3 ≤ k then sampleAnimated.lists (k - 3) else [], fun id => still id⟩

theorem normal_tame (c : Conv) : normalAnimated.Tame c (fun _ => c) true := by
  refine ⟨?_, ?_, fun _ _ _ => rfl, fun _ _ id _ => still_tame id⟩
  · intro j k hjk id hid
    simp only [normalAnimated] at hid ⊢
    split at hid
    · split
      · exact (sample_tame c).apart _ _ (by omega) id hid
      · simp
    · simp at hid
  · intro k
    simp only [normalAnimated]
    split
    · exact (sample_tame c).once _
    · simp

/-- A point whose second component is animated. -/
def raised : Animated := ⟨fun k => if k = 1 then 1 else 0, fun k => if k = 1 then [7] else [], fun _ => still 1⟩

theorem raised_tame (c : Conv) : raised.Tame c (fun _ => c) true := by
  refine ⟨?_, ?_, fun _ _ _ => rfl, fun _ _ id _ => still_tame 1⟩
  · intro j k hjk id hid
    simp only [raised] at hid ⊢
    split at hid
    · split
      · omega
      · simp
    · simp at hid
  · intro k
    simp only [raised]
    split <;> simp

end

end Verif.FStd
