import Verif.ArcSkin
import Verif.ArcSpec

/-! # Specification of saved and loaded skins -/

namespace Verif.FArc

open Verif.FEff (Text text)
open Verif.FConv (Ov shown)

/-- A weight after loading: one within 1/10000 of 1 becomes 1; the text shows a limited number of digits. -/
def weightAfter (rnd : ℚ → ℚ) (w : ℚ) : ℚ := shown rnd (if |w - 1| < 1 / 10000 then 1 else w)

/-- The pairs of a vertex after loading: weights that do not add up to about 0 or 1 are divided by their sum. -/
def vertAfter (rnd : ℚ → ℚ) (v : List (Int × ℚ)) : List (Int × ℚ) :=
  let sum := (v.map fun p => weightAfter rnd p.2).sum
  if |sum| < 1 / 10000 ∨ |sum - 1| < 1 / 10000 then v.map fun p => (p.1, weightAfter rnd p.2) else v.map fun p => (p.1, weightAfter rnd p.2 / sum)

/-- A skin whose target is an element of the same file, whose joints have words for ids, and whose vertices name joints that exist, or -1. -/
structure GoodSkin (ov : Ov) (id : Text) (s : Skin) : Prop where
  id : Plain id
  target : ∃ t, FUri.parse ov (35 :: t) = some s.target ∧ Plain t ∧ 63 ∉ t ∧ 92 ∉ t
  joints : ∀ j ∈ s.joints, Word j.1
  few : s.joints.length + 48 < 2 ^ 31
  verts : s.verts.length < 2 ^ 32
  counts : ∀ v ∈ s.verts, v.length < 2 ^ 32
  weights : s.verts.flatten.length + 49 < 2 ^ 31
  indices : ∀ v ∈ s.verts, ∀ p ∈ v, -1 ≤ p.1 ∧ p.1 < s.joints.length

/-- The skin after loading. -/
def skinAfter (rnd : ℚ → ℚ) (s : Skin) : Skin :=
  { s with bindShape := shownMat rnd s.bindShape, joints := s.joints.map fun j => (j.1, shownMat rnd j.2), verts := s.verts.map (vertAfter rnd) }

end Verif.FArc
