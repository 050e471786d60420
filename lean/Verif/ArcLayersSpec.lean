import Verif.ArcLayers
import Verif.ArcSceneSpec

/-! # What the layers and times of a document should be after saving and loading -/

namespace Verif.FArc

open Verif.FEff (Text text)

/-- Layers fit for a file: they have names, and the objects are words. -/
def GoodLayers (ls : List (Text × List Text)) : Prop := ∀ l ∈ ls, l.1 ≠ [] ∧ ∀ w ∈ l.2, Word w ∧ Plain w

/-- A document after a file with the layers and times of `d` was loaded into it. -/
def docAfter (rnd : ℚ → ℚ) (d old : Doc) : Doc :=
  { seen := old.seen
    start := match d.start with | some q => some (FConv.shown rnd q) | none => old.start
    stop := match d.stop with | some q => some (FConv.shown rnd q) | none => old.stop
    layers := old.layers ++ d.layers }

/-- The techniques that are left in the extra tree of the visual scene. -/
def leftTechs (d : Doc) : List FExtra.Tech :=
  (if d.layers = [] then [] else [⟨text "MAYA", FExtra.blank⟩]) ++ if d.start = none ∧ d.stop = none then [] else [⟨text "FCOLLADA", FExtra.blank⟩]

end Verif.FArc
