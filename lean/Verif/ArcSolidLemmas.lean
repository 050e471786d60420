import Verif.ArcSolidSpec
import Verif.ArcTransLemmas
import Verif.ArcPassLemmas
import Verif.ConvMoreProps

/-! # Lemmas for the saving and loading of analytical shapes -/

namespace Verif.FArc

open Verif.FEff (Text text)
open Verif.FConv (Ov Formats shown)

theorem readFloats_nums (ov : Ov) {fmt rnd} (hf : Formats fmt rnd) (qs : List ℚ) (hne : qs ≠ []) :
    FConv.readFloats ov qs.length (numsText fmt qs ++ [0]) = some (qs.map (shown rnd), [0]) := by
  obtain ⟨Ls, h1, h2, h3⟩ := FConv.spaced_lits hf qs
  have hl : Ls.length = qs.length := by simpa using congrArg List.length h2
  have hn : Ls ≠ [] := by rintro rfl; exact hne (List.length_eq_zero_iff.1 hl.symm)
  unfold numsText
  rw [h3, Option.getD_some, ← hl, FConv.readFloats_joined ov Ls h1 hn [], h2]

theorem readPair_text (ov : Ov) {fmt rnd} (hf : Formats fmt rnd) (v : ℚ × ℚ) : readPair ov (pairText fmt v) = some (shownRadii rnd v) := by
  have h := readFloats_nums ov hf [v.1, v.2] (by simp)
  unfold readPair pairText
  rw [show [v.1, v.2].length = 2 from rfl] at h
  rw [h]
  rfl

theorem readTriple_text (ov : Ov) {fmt rnd} (hf : Formats fmt rnd) (v : V3) : readTriple ov (vecText fmt v) = some (shownVec rnd v) := by
  have h := readFloats_nums ov hf [v.1, v.2.1, v.2.2] (by simp)
  unfold readTriple vecText
  rw [show [v.1, v.2.1, v.2.2].length = 3 from rfl] at h
  rw [h]
  rfl

theorem readPlane_text (ov : Ov) {fmt rnd} (hf : Formats fmt rnd) (a b c d : ℚ) : readPlane ov (numsText fmt [a, b, c, d]) = some ((shown rnd a, shown rnd b, shown rnd c), shown rnd d) := by
  have h := readFloats_nums ov hf [a, b, c, d] (by simp)
  unfold readPlane
  rw [show [a, b, c, d].length = 4 from rfl] at h
  rw [h]
  rfl

theorem direct_nums {fmt rnd} (hf : Formats fmt rnd) (n : Text) (qs : List ℚ) : (textChild n (numsText fmt qs)).direct = numsText fmt qs := by
  rw [textChild, direct_elem, encode_nums hf]

theorem direct_vec {fmt rnd} (hf : Formats fmt rnd) (n : Text) (v : V3) : (textChild n (vecText fmt v)).direct = vecText fmt v := direct_nums hf n _

theorem direct_pair {fmt rnd} (hf : Formats fmt rnd) (n : Text) (v : ℚ × ℚ) : (textChild n (pairText fmt v)).direct = pairText fmt v := direct_nums hf n _

theorem elem_name (n : Text) (a : List (Text × Text)) (c : Text) (k : List Node) : (Node.elem n a c k).name = n := rfl

theorem direct_value (n t : Text) : (valueChild n t).direct = t := rfl

theorem name_value (n t : Text) : (valueChild n t).name = n := rfl

end Verif.FArc
