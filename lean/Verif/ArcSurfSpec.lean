import Verif.ArcSurf
import Verif.ArcSpec

/-!
# Specification of the saving and loading of surfaces
-/

namespace Verif.FArc

open Verif.FEff (Text text)
open Verif.FConv (Ov shown)
open Verif.FFx (Init Hint)

/-- A text of characters that are written as they are. -/
def Unescaped (t : Text) : Prop := ∀ c ∈ t, FXml.IsChar c ∧ FXml.contentOk c = true

/-- An image has an id. -/
def ImageId (t : Text) : Prop := t ≠ [] ∧ FXml.ValidId true t

/-- A hint of enumerators. -/
structure GoodHint (h : Hint) : Prop where
  channels : h.channels ≤ 7
  range : h.range ≤ 6
  precision : h.precision ≤ 3
  options : ∀ o ∈ h.options, o < 4

/-- A surface that can be saved: its images have ids, a method that needs an image has one, its texts can be read back and its size is determined. -/
structure GoodSurf (s : Surf) : Prop where
  ids : ∀ t ∈ s.images, ImageId t
  first : (∃ t, s.init = some (.volume t) ∧ t ≤ 1) ∨ (∃ t o, s.init = some (.cube t o) ∧ t ≤ 1) ∨ s.init = some .planar → s.images ≠ []
  attrs : ∀ m sl f, s.init = some (.from_ m sl f) → ∀ t ∈ m ++ sl ++ f, Plain t
  format : Unescaped s.format
  type : Plain s.type
  hint : ∀ h, s.hint = some h → GoodHint h
  size : s.size ≠ none
  mips : s.mips < 65536

/-- The names and the method of initialization that come back. -/
def initAfter (images : List Text) : Option Init → List Text × Option Init
  | none => ([], none)
  | some (.from_ m sl f) =>
    if images.length = f.length ∨ images.length = m.length ∨ images.length = sl.length then
      if images = [] then ([], none) else ([images.flatten], some (.from_ (m.take images.length) (sl.take images.length) (f.take images.length)))
    else (images, some (.from_ [] [] []))
  | some .asNull => ([], some .asNull)
  | some .asTarget => ([], some .asTarget)
  | some (.volume t) => if t ≤ 1 then (images.take 1, some (.volume t)) else ([], some (.volume 0))
  | some (.cube t _) => if t ≤ 1 then (images.take 1, some (.cube t [])) else if t = 2 ∧ images.length = 6 then (images, some (.cube 2 [])) else ([], some (.cube 0 []))
  | some .planar => (images.take 1, some .planar)

/-- The size that comes back: indeterminate when there is none. -/
def sizeAfter (rnd : ℚ → ℚ) : Option V3 → Option V3
  | some v => if v = (0, 0, 0) then none else some (shown rnd v.1, shown rnd v.2.1, shown rnd v.2.2)
  | none => none

/-- The surface that comes back, before the images are found. -/
def surfAfter (rnd : ℚ → ℚ) (s : Surf) : Surf where
  names := (initAfter s.images s.init).1
  images := []
  init := (initAfter s.images s.init).2
  format := if s.format = [] then text "A8R8G8B8" else s.format
  hint := s.hint
  size := sizeAfter rnd s.size
  ratio := if s.size = some (0, 0, 0) ∧ s.ratio ≠ 1 then shown rnd s.ratio else 0
  mips := s.mips
  generate := false
  type := if s.type = [] then text "2D" else s.type

/-- The images of the surface are all written: no list of mip levels, slices or faces is as long as that of the images, unless there is one image; a cube of faces has six images and the other methods one. -/
def AllWritten (s : Surf) : Prop := match s.init with
  | some (.from_ m sl f) => s.images ≠ [] ∧ (s.images.length = 1 ∨ s.images.length ≠ f.length ∧ s.images.length ≠ m.length ∧ s.images.length ≠ sl.length)
  | some (.volume t) => t ≤ 1 ∧ s.images.length = 1
  | some (.cube t _) => t ≤ 1 ∧ s.images.length = 1 ∨ t = 2 ∧ s.images.length = 6
  | some .planar => s.images.length = 1
  | _ => s.images = []

end Verif.FArc
