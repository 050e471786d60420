import Verif.CurveClipSpec
import Verif.CurveShift
import Mathlib.Data.Rat.Floor
import Mathlib.Algebra.Order.Field.Rat

/-! # Lemmas for the properties in CurveClipProps -/

namespace Verif.Curve

variable {K : Type} [Field K] [LinearOrder K]

omit [LinearOrder K] in
theorem moveKey_move (a b : K) (k : Key K) : moveKey a (moveKey b k) = moveKey (b + a) k := by
  simp [moveKey, add_assoc]

omit [LinearOrder K] in
theorem runClip_inv {keys : List (Key K)} {c : Clips K} (h1 : c.clips.length = c.offsets.length) (h2 : c.keys = keys.map (moveKey c.currentOffset)) (op : ClipOp K) :
    ∃ c', runClip c op = some c' ∧ c'.clips.length = c'.offsets.length ∧ c'.keys = keys.map (moveKey c'.currentOffset) := by
  cases op with
  | register clip start => exact ⟨_, rfl, by simp [register, h1], h2⟩
  | setOffset o clip =>
    rw [runClip, setClipOffset]
    by_cases hl : findClip (some clip) c.clips < c.clips.length
    · rw [if_pos hl, if_pos (by omega)]
      exact ⟨_, rfl, by simp [h1], h2⟩
    · rw [if_neg hl]; exact ⟨_, rfl, h1, h2⟩
  | select clip =>
    rw [runClip, setCurrent]
    by_cases hc : c.current = clip
    · rw [if_pos hc]; exact ⟨_, rfl, h1, h2⟩
    · rw [if_neg hc]
      by_cases hl : findClip clip c.clips < c.clips.length
      · rw [if_pos hl, List.getElem?_eq_getElem (by omega : findClip clip c.clips < c.offsets.length)]
        refine ⟨_, rfl, h1, ?_⟩
        simp only [h2, List.map_map]
        apply List.map_congr_left
        intro k _
        simp only [Function.comp, moveKey_move]
        congr 1
        ring
      · rw [if_neg hl]; exact ⟨_, rfl, h1, h2⟩

variable [IsStrictOrderedRing K] [FloorRing K]

end Verif.Curve
