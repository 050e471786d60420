import Verif.ArcLemmas

/-! # Lemmas for the properties in ArcSourceProps -/

namespace Verif.FArc

open Verif.FStr (Ch)
open Verif.FEff (Text text)
open Verif.FConv (Ov Lit Formats shown tokens)

theorem accessorOf_source (id ty t : Text) (len count stride : Nat) (ps : Option (List Text)) (pt : Text) :
    accessorOf (sourceNode id ty t len count stride ps pt) = some (accessor (id ++ text "-array") count stride ps (some pt)) ∨ ty = text "technique_common" := by
  by_cases h : ty = text "technique_common"
  · exact Or.inr h
  · left
    simp [accessorOf, sourceNode, arrayNode, child_cons, h, accessor]

theorem countOf_accessor (id : Text) (count stride : Nat) (ps : Option (List Text)) (pt : Option Text) (h : count < 2 ^ 32) : countOf (some (accessor id count stride ps pt)) = some count := by
  simp [countOf, prop, accessor, raw_cons, text_inj, decode_plain (natText_plain count), readNat_natText count h]

theorem strideOf_accessor (id : Text) (count stride : Nat) (ps : Option (List Text)) (pt : Option Text) (h : stride < 2 ^ 32) :
    strideOf (some (accessor id count stride ps pt)) = some (if stride = 0 then 1 else stride) := by
  simp [strideOf, prop, accessor, raw_cons, text_inj, decode_plain (natText_plain stride), readNat_natText stride h]

theorem accessorOf_floats (id t : Text) (len count stride : Nat) (ps : Option (List Text)) (pt : Text) :
    accessorOf (sourceNode id (text "float_array") t len count stride ps pt) = some (accessor (id ++ text "-array") count stride ps (some pt)) := by
  rcases accessorOf_source id (text "float_array") t len count stride ps pt with h | h
  · exact h
  · rw [text_inj] at h; exact absurd h (by decide)

theorem array_of_source (id ty t : Text) (len count stride : Nat) (ps : Option (List Text)) (pt : Text) : direct ((sourceNode id ty t len count stride ps pt).child ty) = t := by
  simp [sourceNode, child_cons, arrayNode, direct]

theorem accessorOf_names (idref : Bool) (id t : Text) (len count stride : Nat) (ps : Option (List Text)) (pt : Text) :
    accessorOf (sourceNode id (if idref then text "IDREF_array" else text "Name_array") t len count stride ps pt) =
      some (accessor (id ++ text "-array") count stride ps (some pt)) := by
  rcases accessorOf_source id (if idref then text "IDREF_array" else text "Name_array") t len count stride ps pt with h | h
  · exact h
  · cases idref
    · rw [if_neg (by decide), text_inj] at h; exact absurd h (by decide)
    · rw [if_pos rfl, text_inj] at h; exact absurd h (by decide)

end Verif.FArc
