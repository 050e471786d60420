import Verif.FitTerms
import Verif.FitLemmas
import Verif.PolyProps

/-! # Lemmas for the properties in FitProps -/

namespace Verif.FFit

open Verif.FPoly Verif.FUnify

theorem sample_splittable : Splittable [0] 7 (sample .polygons []) where
  reach := reach_foldlM (ops := [Op.addInput 0, .addInput 1, .addFace 4, .addFace 3, .addFace 4, .setIndices 0 ([0, 1, 2, 3, 0, 1, 4, 5, 4, 3, 2].map some),
    .setIndices 1 ([7, 7, 7, 7, 8, 8, 8, 9, 9, 9, 9].map some)]) .start (by decide)
  srcs := rfl
  nodup := by decide
  small := by decide
  total := by decide
  zero := by
    intro j d x hj hx
    match j with
    | 0 => cases hj; cases hx; simp
    | 1 => cases hj; cases hx; simp
    | n + 2 => simp [sample] at hj

end Verif.FFit
