import Verif.Arc
import Verif.ConvTupleProps
import Verif.ConvMoreProps
import Verif.XmlTextProps

/-! # Terms used in the properties of saved and loaded files -/

namespace Verif.FArc

open Verif.FStr (Ch)
open Verif.FEff (Text text)

/-- A text that survives decoding: characters other than the terminator and `%`. -/
def Plain (t : Text) : Prop := ∀ c ∈ t, FXml.IsChar c ∧ c ≠ 37

/-- A word: not empty and without blanks. -/
def Word (t : Text) : Prop := t ≠ [] ∧ 0 ∉ t ∧ ∀ c ∈ t, ¬ FConv.IsSpace c

/-- The matrix with each entry as it is shown. -/
def shownMat (rnd : ℚ → ℚ) (m : FConv.Mat) : FConv.Mat := fun i j => FConv.shown rnd (m i j)

end Verif.FArc
