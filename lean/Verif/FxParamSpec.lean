import Verif.FxParam

/-! # What a user expects of copies of effect parameters and of their comparison -/

namespace Verif.FFx

open Verif.FEff (Text text Role)

variable {K : Type}

/-- A parameter all of whose fields a copy is known to keep: it is not animated; a sampler has the modes of a new one; a surface has no names and the type of a new one, and is no cube map with an order of images. -/
def Plain : Body K → Prop
  | .num _ _ _ c => c = none
  | .sampler s => s.modes = [1, 1, 1, 0, 0, 0]
  | .surface s => s.names = [] ∧ s.type = text "2D" ∧ ∀ t o, s.init = some (.cube t o) → o = []
  | _ => True

/-- The images of a surface are distinct, as they are after any calls (C118). -/
def Distinct : Body K → Prop
  | .surface s => s.images.Nodup
  | _ => True

/-- The fields of a value that a copy keeps whatever they are. -/
def Kept : Body K → Body K → Prop
  | .int n, b => b = .int n
  | .bool x, b => b = .bool x
  | .string t, b => b = .string t
  | .num s h v _, b => b = .num s h v none
  | .sampler s, b => ∃ d, b = .sampler d ∧ d.surface = s.surface ∧ d.type = s.type
  | .surface s, b => ∃ d, b = .surface d ∧ d.images = s.images ∧ d.init.map Init.kind = s.init.map Init.kind ∧ d.size = s.size ∧ d.ratio = s.ratio ∧ d.mips = s.mips ∧ d.generate = s.generate ∧
      d.format = s.format ∧ d.hint = s.hint

/-- Two classes of parameters are the same. -/
def SameClass : Body K → Body K → Prop
  | .int _, .int _ => True
  | .bool _, .bool _ => True
  | .string _, .string _ => True
  | .num s _ _ _, .num t _ _ _ => s = t
  | .sampler _, .sampler _ => True
  | .surface _, .surface _ => True
  | _, _ => False

/-- A parameter that a container of parameters may have made: those for colours are made by the standard effect only. -/
def Made : Body K → Prop
  | .num s _ _ _ => s ≠ .color3 ∧ s ≠ .color4
  | _ => True

/-- The numbers are pairwise closer than the tolerance. -/
def Close [Field K] [LinearOrder K] (v w : List K) : Prop := List.Forall₂ (fun a b => |a - b| < Geo.tolerance) v w

/-- Two parameters that are not surfaces have the same value: the same type and, for numbers, the same precision and close values; for samplers, the same type and surfaces of the same reference. -/
inductive SameValue [Field K] [LinearOrder K] (ref : Nat → Text) : Body K → Body K → Prop
  | int (n : Int) : SameValue ref (.int n) (.int n)
  | bool (b : Bool) : SameValue ref (.bool b) (.bool b)
  | string (t : Text) : SameValue ref (.string t) (.string t)
  | num {s t : Shape} {h : Bool} {v w : List K} {c d : Option Nat} (hs : s.type = t.type) (hv : Close v w) : SameValue ref (.num s h v c) (.num t h w d)
  | sampler {s t : Sampler} (ht : s.type = t.type) (hr : s.surface.map ref = t.surface.map ref) : SameValue ref (.sampler s) (.sampler t)

/-- A surface. -/
def IsSurface (b : Body K) : Prop := ∃ s, b = .surface s

/-- `Overwrite` can make the value that of the source: the precision of numbers and the type of samplers are not written. -/
def Fits : Body K → Body K → Prop
  | .num s h _ _, .num t h' _ _ => s.type = t.type ∧ h = h'
  | .sampler s, .sampler t => s.type = t.type
  | .int _, .int _ => True
  | .bool _, .bool _ => True
  | .string _, .string _ => True
  | _, _ => False

/-- The number of components. -/
def Shape.components : Shape → Nat
  | .float => 1
  | .float2 => 2
  | .float3 => 3
  | .color3 => 3
  | .vector => 4
  | .color4 => 4
  | .matrix => 16

/-- The body `c` is `b` with the value of `a` and all else unchanged: for a sampler the value is its surface; for a surface it is the images, the size, the ratio, the levels and whether they are generated. -/
def Written : Body K → Body K → Body K → Prop
  | .int n, .int _, c => c = .int n
  | .bool x, .bool _, c => c = .bool x
  | .string t, .string _, c => c = .string t
  | .num _ _ v _, .num s h _ o, c => c = .num s h v o
  | .sampler s, .sampler d, c => c = .sampler ⟨if s.type = d.type then s.surface else d.surface, d.type, d.modes⟩
  | .surface s, .surface d, c => c = .surface ⟨d.names, s.images, d.init, d.format, d.hint, s.size, s.ratio, s.mips, s.generate, d.type⟩
  | _, _, _ => False

end Verif.FFx
