import Verif.ArcLink

/-!
# Model of the linking of animations to extra elements (FArchiveXML/FAXImportLinking.cpp 149-206)

As in ArcLink.lean. The drivers are those of C158: `LinkDriver` is left out, as are dirty flags and the registration of animated values. The animated value is that of a new extra element (FAXEntityImport.cpp 61).
-/

namespace Verif.FArc

open Verif.FEff (Text text)
open Verif.FConv (Ov)

variable {C : Type}

/-- `fm::vector<fm::string>::resize`. -/
def resizeTexts (qs : List Text) (n : Nat) : List Text := qs.take n ++ List.replicate (n - qs.length) []

/-- FAXImportLinking.cpp 163-186: the qualifiers for the channels that are left, after those of `qs`. -/
def customNames (qs : List Text) : List (LChan C) → List Text
  | [] => qs
  | ch :: chs => if ch.curves = [] then customNames qs chs else if ch.qual = [] then resizeTexts qs ch.curves.length else customNames (qs ++ [ch.qual]) chs

/-- FAXImportLinking.cpp 189: there is at least one. -/
def atLeastOne (qs : List Text) : List Text := if qs = [] then [[]] else qs

/-- FAXImportLinking.cpp 149-206: `LinkAnimatedCustom`: the channels `chs` point at the element; `dummy` is the address of the float of the value. -/
def linkCustom (ov : Ov) (dummy : Nat) (chs : List (LChan C)) : Option (Bool × FAnim.Anim C) :=
  processChannels ov (FAnim.customResize dummy (FAnim.custom dummy) (atLeastOne (customNames [] chs)) false) chs

end Verif.FArc
