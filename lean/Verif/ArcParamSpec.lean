import Verif.ArcParam
import Verif.ArcSurfSpec

/-!
# Specification of the saving and loading of effect parameters
-/

namespace Verif.FArc

open Verif.FEff (Text text Role)
open Verif.FConv (Ov shown)
open Verif.FFx (Note Ty)
open Verif.Enum (TextureWrapMode TextureFilterFunction)

/-- An annotation that is kept: a boolean, an integer or a float whose text is written as it is, or a string. -/
structure GoodNote (a : Note) : Prop where
  name : Plain a.name
  value : a.type = 8 ∧ Plain a.value ∨ (a.type = 1 ∨ a.type = 2 ∨ a.type = 3) ∧ Unescaped a.value

/-- A value that can be saved. -/
def GoodBody : PBody → Prop
  | .int i => i.natAbs + 48 < 2 ^ 31
  | .string t => Plain t
  | .sampler s => FXml.ValidId false s.surface
  | .surface s => GoodSurf s
  | _ => True

/-- A parameter that can be saved: one that declares or changes a value, with a reference; a semantic only when it declares. -/
structure GoodParm (p : Parm) : Prop where
  role : p.role = .generator ∨ p.role = .modifier
  ref : FXml.ValidId false p.ref
  named : p.ref ≠ []
  sem : Plain p.sem
  noSem : p.role = .modifier → p.sem = []
  notes : ∀ a ∈ p.notes, GoodNote a
  body : GoodBody p.body

/-- The filter that comes back: the linear one is lost. -/
def filterAfter (f : TextureFilterFunction) : TextureFilterFunction := if f = .linear then .unknown else f

/-- The sampler that comes back: a one-dimensional sampler has one wrap mode, a two-dimensional one two. -/
def sampAfter (s : Samp) : Samp :=
  { s with
    wrapT := if s.kind = .one then .wrap else s.wrapT
    wrapP := if s.kind = .one ∨ s.kind = .two then .wrap else s.wrapP
    minF := filterAfter s.minF
    magF := filterAfter s.magF
    mipF := filterAfter s.mipF }

/-- The value that comes back. -/
def bodyAfter (rnd : ℚ → ℚ) : PBody → PBody
  | .bool b => .bool b
  | .int i => .int i
  | .string t => .string t
  | .float h q => .float h (shown rnd q)
  | .float2 h a b => .float2 h (shown rnd a) (shown rnd b)
  | .float3 h v => .float3 h (shown rnd v.1, shown rnd v.2.1, shown rnd v.2.2)
  | .vector h a b c d => .vector h (shown rnd a) (shown rnd b) (shown rnd c) (shown rnd d)
  | .matrix h m => .matrix h (shownMat rnd m)
  | .sampler s => .sampler (sampAfter s)
  | .surface s => .surface (surfAfter rnd s)

/-- The parameter that comes back. -/
def parmAfter (rnd : ℚ → ℚ) (p : Parm) : Parm := { p with body := bodyAfter rnd p.body }

end Verif.FArc
