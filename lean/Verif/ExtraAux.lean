import Verif.ExtraTerms
import Verif.ExtraLemmas

/-! # Lemmas for the properties in ExtraProps -/

namespace Verif.FExtra

open Verif.FStr (Ch)

theorem isFirst {α : Type} (key : α → Text) (l : List α) (t : Text) : IsFirst key l t (l.findIdx? fun x => key x = t) := by
  cases h : l.findIdx? fun x => key x = t with
  | some i => exact findIdx_some key h
  | none => exact findIdx_none key h

end Verif.FExtra
