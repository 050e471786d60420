import Verif.ArcTree
import Verif.ArcCamSpec

/-! # What a tree of animations should be after saving and loading -/

namespace Verif.FArc

open Verif.FEff (Text text)
open Verif.FConv (Ov DateTime shown)
open Verif.Enum (Interpolation)

/-- The extra tree of an entity as it is read back (C145). -/
def extraOf (s : Ent) : FExtra.Extra := match s.extra with | [] => [] | t :: es => extraAfter s t.techs es

/-- An extra tree with a type that holds the targets of the channels, if there are any. -/
def withTargets (e : FExtra.Extra) (l : List (Text × Text)) : FExtra.Extra :=
  if l = [] then e
  else e ++ [⟨text "AnimTargets", [⟨text "TEMP", .mk [] [] [] (l.flatMap fun x => [.mk (text "pointer") x.1 [] [], .mk (text "pointer") x.2 [] []])⟩]⟩]

/-- The targets of the curves of all channels: pointer and qualifier. -/
def targetsOf (chs : List (Text × List APlaced)) : List (Text × Text) := chs.flatMap fun ch => ch.2.map fun c => (ch.1, fullQual c)

mutual
/-- The tree as it is read back: one channel for each curve. -/
def treeAfter (ov : Ov) (rnd : ℚ → ℚ) (now : DateTime) (junk : APlaced → List Interpolation) : ATree → LTree
  | .mk s _ chs kids => .mk (entAfter ov rnd now s (withTargets (extraOf s) (targetsOf chs))) (!(targetsOf chs).isEmpty) (chs.flatMap fun ch => ch.2.map fun c => chanAs rnd (junk c) ch.1 c)
      (treesAfter ov rnd now junk kids)
/-- As `treeAfter`, for the child animations. -/
def treesAfter (ov : Ov) (rnd : ℚ → ℚ) (now : DateTime) (junk : APlaced → List Interpolation) : List ATree → List LTree
  | [] => []
  | t :: ts => treeAfter ov rnd now junk t :: treesAfter ov rnd now junk ts
end

/-- An animation, without its children, that a file can hold. -/
structure GoodAnim (ov : Ov) (rnd : ℚ → ℚ) (junk : APlaced → List Interpolation) (s : Ent) (chs : List (Text × List APlaced)) : Prop where
  ent : GoodEnt ov rnd s
  plain : s.target = []
  free : text "AnimTargets" ∉ s.extra.map (·.name)
  chans : ∀ ch ∈ chs, Pointer ch.1 ∧ ∀ c ∈ ch.2, GoodCurve c ∧ (junk c).length = c.keys.length

mutual
/-- A tree of animations that a file can hold, with no extra tree transient. -/
def GoodAnimTree (ov : Ov) (rnd : ℚ → ℚ) (junk : APlaced → List Interpolation) : ATree → Prop
  | .mk s mute chs kids => mute = false ∧ GoodAnim ov rnd junk s chs ∧ GoodAnimTrees ov rnd junk kids
/-- As `GoodAnimTree`, for the child animations. -/
def GoodAnimTrees (ov : Ov) (rnd : ℚ → ℚ) (junk : APlaced → List Interpolation) : List ATree → Prop
  | [] => True
  | t :: ts => GoodAnimTree ov rnd junk t ∧ GoodAnimTrees ov rnd junk ts
end

mutual
/-- In no animation of a file two child elements with ids have the same CRC-32. -/
def ApartTree : Node → Prop
  | .elem _ _ _ ks => Apart ks ∧ ApartTrees ks
/-- As `ApartTree`, for the child animations. -/
def ApartTrees : List Node → Prop
  | [] => True
  | k :: ks => (k.name = text "animation" → ApartTree k) ∧ ApartTrees ks
end

end Verif.FArc
