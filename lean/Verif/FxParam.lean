import Verif.Geo
import Verif.Tex

/-!
# Model of effect parameters: copies, comparison and overwriting (FCDocument/FCDEffectParameter.cpp and .hpp, FCDEffectParameterSurface.cpp, FCDEffectParameterSampler.cpp, FCDEffectParameterFactory.cpp)

Objects are told apart by numbers. The numbers of a vector or of a matrix are a list, over an ordered field `K`. The curves of a value are an opaque number, `none` when the value is not animated. The flags
of changed objects are left out. Texts have no zero character.
-/

namespace Verif.FFx

open Verif.FEff (Text text Role)

/-- FCDEffectParameter.h 47-59: the types. -/
inductive Ty where
  | sampler | integer | boolean | float | float2 | float3 | vector | matrix | string | surface
deriving DecidableEq

/-- FCDEffectParameter.h 340-346: the classes of animatable parameters. -/
inductive Shape where
  | float | float2 | float3 | color3 | vector | color4 | matrix
deriving DecidableEq

/-- FCDEffectParameter.cpp 147-153: `GetType` of these. -/
def Shape.type : Shape → Ty
  | .float => .float
  | .float2 => .float2
  | .float3 => .float3
  | .color3 => .float3
  | .vector => .vector
  | .color4 => .vector
  | .matrix => .matrix

/-- FCDEffectParameter.h 367-369: an annotation. -/
structure Note where
  name : Text
  type : Nat
  value : Text
deriving DecidableEq

/-- FCDEffectParameterSurface.h 238-480: the methods of initialization, with their fields. -/
inductive Init where
  | from_ (mip slice face : List Text)
  | asNull
  | asTarget
  | cube (type : Nat) (order : List Nat)
  | volume (type : Nat)
  | planar
deriving DecidableEq

/-- `GetInitType`. -/
def Init.kind : Init → Nat
  | .from_ _ _ _ => 0
  | .asNull => 1
  | .asTarget => 2
  | .cube _ _ => 3
  | .volume _ => 4
  | .planar => 5

/-- FCDEffectParameterSurface.cpp 344-360, 222-225, 266-269: `Create` gives a new object of the type of `i`; the first of the enumerated values is ALL. -/
def Init.create : Init → Init
  | .from_ _ _ _ => .from_ [] [] []
  | .asNull => .asNull
  | .asTarget => .asTarget
  | .cube _ _ => .cube 0 []
  | .volume _ => .volume 0
  | .planar => .planar

/-- FCDEffectParameterSurface.cpp 206-338: `Clone` into a given object; nothing is copied into an object of another type. -/
def Init.cloneInto (src dst : Init) : Init :=
  match src, dst with
  | .from_ m s f, .from_ _ _ _ => .from_ m s f
  | .cube t _, .cube _ o => .cube t o
  | .volume t, .volume _ => .volume t
  | _, d => d

/-- FCDEffectParameterSurface.h 30-42: a hint for the format. -/
structure Hint where
  channels : Nat
  range : Nat
  precision : Nat
  options : List Nat
deriving DecidableEq

variable {K : Type}

/-- FCDEffectParameterSurface.h 61-70: the fields of a surface. The images are a tracked list. -/
structure Surface (K : Type) where
  names : List Text
  images : List Nat
  init : Option Init
  format : Text
  hint : Option Hint
  size : List K
  ratio : K
  mips : Nat
  generate : Bool
  type : Text
deriving DecidableEq

/-- FCDEffectParameterSampler.h: the fields of a sampler; `modes` are the three modes of wrapping and the three filters. The surface is a tracked pointer. -/
structure Sampler where
  surface : Option Nat
  type : Nat
  modes : List Nat
deriving DecidableEq

/-- The fields of the classes of parameters. -/
inductive Body (K : Type) where
  | int (n : Int)
  | bool (b : Bool)
  | string (t : Text)
  | num (shape : Shape) (half : Bool) (value : List K) (curves : Option Nat)
  | sampler (s : Sampler)
  | surface (s : Surface K)
deriving DecidableEq

/-- FCDEffectParameter.h 79-82: a parameter. -/
structure Param (K : Type) where
  role : Role
  ref : Text
  sem : Text
  notes : List Note
  body : Body K
deriving DecidableEq

/-- `GetType`. -/
def Body.type : Body K → Ty
  | .int _ => .integer
  | .bool _ => .boolean
  | .string _ => .string
  | .num s _ _ _ => s.type
  | .sampler _ => .sampler
  | .surface _ => .surface

/-- `GetType`. -/
def Param.type (p : Param K) : Ty := p.body.type

/-- FCDEffectParameter.cpp 155-168: the first value of an animatable parameter. -/
def Shape.first [Zero K] [One K] : Shape → List K
  | .float => [0]
  | .float2 => [0, 0]
  | .float3 => [0, 0, 0]
  | .color3 => [1, 1, 1]
  | .vector => [0, 0, 0, 0]
  | .color4 => [1, 1, 1, 1]
  | .matrix => [1, 0, 0, 0, 0, 1, 0, 0, 0, 0, 1, 0, 0, 0, 0, 1]

/-- FCDEffectParameterSurface.cpp 26-38: a new surface. -/
def newSurface [Zero K] [One K] : Surface K := ⟨[], [], none, text "A8R8G8B8", none, [0, 0, 0], 1, 0, false, text "2D"⟩

/-- FCDEffectParameterSampler.cpp 26-37: a new sampler; FUDaeEnum.h 152, 181: the default of the modes of wrapping is WRAP (1), that of the filters is NONE (0). -/
def newSampler : Sampler := ⟨none, 1, [1, 1, 1, 0, 0, 0]⟩

/-- FCDEffectParameter.cpp 28-35: a new parameter. -/
def newParam (b : Body K) : Param K := ⟨.generator, [], [], [], b⟩

/-- FCDEffectParameterFactory.cpp 16-36: `Create`. -/
def create [Zero K] [One K] : Ty → Param K
  | .sampler => newParam (.sampler newSampler)
  | .integer => newParam (.int 0)
  | .boolean => newParam (.bool false)
  | .float => newParam (.num .float false (Shape.first .float) none)
  | .float2 => newParam (.num .float2 false (Shape.first .float2) none)
  | .float3 => newParam (.num .float3 false (Shape.first .float3) none)
  | .vector => newParam (.num .vector false (Shape.first .vector) none)
  | .matrix => newParam (.num .matrix false (Shape.first .matrix) none)
  | .string => newParam (.string [])
  | .surface => newParam (.surface newSurface)

/-- FCDEffectParameter.hpp 26-36, 68-82, FCDEffectParameterSurface.cpp 142-179, FCDEffectParameterSampler.cpp 66-79: the object `Clone(NULL)` makes, of the class of `b`. -/
def blank [Zero K] [One K] : Body K → Body K
  | .int _ => .int 0
  | .bool _ => .bool false
  | .string _ => .string []
  | .num s _ _ _ => .num s false s.first none
  | .sampler _ => .sampler newSampler
  | .surface _ => .surface newSurface

/-- FCDEffectParameterSurface.cpp 63-81: `AddImage` at the end (Tex.lean). -/
def addImage (l : List Nat) (img : Nat) : List Nat := if img ∈ l then l else l ++ [img]

/-- FCDEffectParameterSurface.cpp 149-176: the fields of a surface. -/
def Surface.cloneInto (src dst : Surface K) : Surface K :=
  { dst with
    images := src.images.foldl addImage dst.images
    init := match src.init with
      | some i => some (i.cloneInto i.create)
      | none => dst.init
    size := src.size, ratio := src.ratio, mips := src.mips, generate := src.generate
    format := src.format
    hint := match src.hint with
      | some h => some h
      | none => dst.hint }

/-- FCDEffectParameter.hpp 34, 76-80 and the classes named above: the value, when the clone has the same class. The animatable value is assigned (FCDParameterAnimatable.h 114), its curves are not. -/
def Body.cloneInto (src dst : Body K) : Body K :=
  match src, dst with
  | .int n, .int _ => .int n
  | .bool b, .bool _ => .bool b
  | .string t, .string _ => .string t
  | .num s h v _, .num s' h' v' c' => if s = s' then .num s' h v c' else .num s' h' v' c'
  | .sampler s, .sampler d => .sampler { d with surface := s.surface, type := s.type }
  | .surface s, .surface d => .surface (s.cloneInto d)
  | _, d => d

/-- FCDEffectParameter.cpp 70-90 and the classes: `Clone` into a given parameter. -/
def Param.cloneInto (src dst : Param K) : Param K :=
  ⟨src.role, src.ref, src.sem, dst.notes ++ src.notes, src.body.cloneInto dst.body⟩

/-- `Clone(NULL)`. -/
def Param.clone [Zero K] [One K] (p : Param K) : Param K := p.cloneInto (newParam (blank p.body))

/-- `AddEffectParameter(GetType())` and `Clone` into the new parameter, as the containers of parameters do it (FCDEffectProfile.cpp 46-47 and others). -/
def Param.copy [Zero K] [One K] (p : Param K) : Param K := p.cloneInto (create p.type)

section Compare

variable [Field K] [LinearOrder K]

/-- FMVector2.h 140, FMVector3.h 253, FMVector4.h 183, FMMatrix44.cpp 423-433: `IsEquivalent`, number by number. -/
def nearby : List K → List K → Bool
  | [], [] => true
  | a :: l, b :: m => Geo.equivalent a b && nearby l m
  | _, _ => false

/-- FCDEffectParameterSurface.cpp 107-139: `IsValueEqual` of two surfaces; `same` says whether they are one object. Line 130 compares `size` with `!=`: FMVector3 has no such operator, but it has conversions
to pointers (FMVector3.h 104-108), so under C++17 (CMakeLists.txt 66) the addresses are compared. -/
def Surface.equal (same : Bool) (a b : Surface K) : Bool :=
  if a.images ≠ b.images then false
  else if a.init.map Init.kind ≠ b.init.map Init.kind then false
  else if !same then false
  else if a.mips ≠ b.mips then false
  else if a.generate ≠ b.generate then false
  else decide (a.ratio = b.ratio)

/-- FCDEffectParameterSampler.cpp 51-63: `IsValueEqual` of two samplers; `ref` gives the references of the surfaces. -/
def Sampler.equal (ref : Nat → Text) (a b : Sampler) : Bool :=
  if a.type ≠ b.type then false
  else match b.surface, a.surface with
    | none, none => true
    | some x, some y => decide (ref x = ref y)
    | _, _ => false

/-- FCDEffectParameter.hpp 18-24, 58-66 and the classes: `IsValueEqual` of two parameters with the numbers `i` and `j`. -/
def valueEqual (ref : Nat → Text) (i : Nat) (a : Param K) (j : Nat) (b : Param K) : Bool :=
  if a.type ≠ b.type then false
  else match a.body, b.body with
    | .int x, .int y => decide (x = y)
    | .bool x, .bool y => x == y
    | .string x, .string y => decide (x = y)
    | .num _ h v _, .num _ h' v' _ => if h ≠ h' then false else nearby v v'
    | .sampler s, .sampler t => s.equal ref t
    | .surface s, .surface t => s.equal (decide (i = j)) t
    | _, _ => false

/-- FCDEffectParameter.cpp 64-67: `IsValueEqual(parameter)`, where `none` is the null pointer. -/
def isValueEqual (ref : Nat → Text) (i : Nat) (a : Param K) (b : Option (Nat × Param K)) : Bool :=
  match b with
  | none => false
  | some x => valueEqual ref i a x.1 x.2

end Compare

/-- FCDEffectParameter.hpp 38-47, 84-93, FCDEffectParameterSurface.cpp 182-198, FCDEffectParameterSampler.cpp 82-93: `Overwrite` of the parameter `dst` with `src`. -/
def Param.overwrite (src dst : Param K) : Param K :=
  if dst.type ≠ src.type then dst
  else match src.body, dst.body with
    | .int n, .int _ => { dst with body := .int n }
    | .bool b, .bool _ => { dst with body := .bool b }
    | .string t, .string _ => { dst with body := .string t }
    | .num _ _ v _, .num s h _ c => { dst with body := .num s h v c }
    | .sampler s, .sampler d => if s.type = d.type then { dst with body := .sampler { d with surface := s.surface } } else dst
    | .surface s, .surface d =>
      { dst with body := .surface { d with images := s.images, size := s.size, ratio := s.ratio, mips := s.mips, generate := s.generate } }
    | _, _ => dst

end Verif.FFx
