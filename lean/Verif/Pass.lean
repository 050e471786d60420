import Mathlib.Algebra.Order.Field.Rat
import Verif.Effect

/-! # Render states and passes of effects

Models `/repo/FCollada/FCDocument/FCDEffectPassState.cpp`, `FCDEffectPass.cpp` and `FCDEffectPassShader.cpp`. Render states are numbered as in `FUDaePassState::State`
(`/repo/FCollada/FUtils/FUDaeEnum.h` 751-868). The two tables were generated from the C++ text. -/

namespace Verif.FPass

open Verif.FEff (Text text)

/-- A byte of the data array of a render state: not yet written (`new uint8[n]`, FCDEffectPassState.cpp 48), a known byte, or the `k`-th byte of the encoding of the float nearest to `q`. Simplification: the
encoding of floats is not modelled, its four bytes are kept symbolic. -/
inductive Cell where
  | raw
  | byte (n : Nat)
  | fl (q : ℚ) (k : Nat)
  deriving DecidableEq

/-- The values written by `SET_VALUE` and `SET_ENUM` (FCDEffectPassState.cpp 57-58) and by `memset` (236). Vectors and matrices are arrays of floats (`FMVector2`, `FMVector3`, `FMVector4`, `FMMatrix44`). -/
inductive Val where
  | u8 (n : Nat)
  | u16 (n : Nat)
  | u32 (n : Nat)
  | bool (b : Bool)
  | float (q : ℚ)
  | floats (l : List ℚ)
  | zeros (n : Nat)

/-- The four bytes of a float. -/
def flBytes (q : ℚ) : List Cell := [.fl q 0, .fl q 1, .fl q 2, .fl q 3]

/-- The bytes of a value in memory: little endian, `bool` one byte, enumerated types stored as `uint32` (FCDEffectPassState.cpp 58). -/
def Val.bytes : Val → List Cell
  | .u8 n => [.byte (n % 256)]
  | .u16 n => [.byte (n % 256), .byte (n / 256 % 256)]
  | .u32 n => [.byte (n % 256), .byte (n / 256 % 256), .byte (n / 65536 % 256), .byte (n / 16777216 % 256)]
  | .bool b => [.byte (if b then 1 else 0)]
  | .float q => flBytes q
  | .floats l => l.flatMap flBytes
  | .zeros n => List.replicate n (.byte 0)

/-- A write of a value at an offset of the data array. Writes at offsets that are not a multiple of the alignment (`*((float*)(data + 1))`) are taken to work, as they do on the target. -/
structure Write where
  off : Nat
  val : Val

/-- A write into the data array; `none`, undefined behaviour, when it does not lie within the array. -/
def Write.run (m : List Cell) (w : Write) : Option (List Cell) :=
  if w.off + w.val.bytes.length ≤ m.length then some (m.take w.off ++ w.val.bytes ++ m.drop (w.off + w.val.bytes.length)) else none

/-- `dataSizeTable`, FCDEffectPassState.cpp 17-30. -/
def dataSizeTable : List Nat :=
  [8, 8, 16, 4, 8, 8, 4, 4, 4, 4, 4, 4, 4, 8, 4, 6, 12, 10, 16, 5, 2, 17, 17, 17, 17, 5, 5, 5, 5, 17, 5, 5, 5, 5,
   5, 5, 5, 2, 2, 2, 2, 2, 2, 17, 256, 17, 2, 16, 16, 4, 4, 4, 8, 1, 8, 4, 4, 4, 16, 16, 1, 4, 4, 16, 16, 16, 4,
   16, 64, 12, 4, 4, 4, 4, 8, 64, 16, 4, 1, 1, 1, 1, 1, 1, 1, 1, 1, 1, 1, 1, 1, 1, 1, 1, 1, 1, 1, 1, 1, 1, 1, 1,
   1, 1, 1, 1, 1, 1]

/-- `FMMatrix44::Identity`, FMath/FMMatrix44.cpp 13-14. -/
def identity : List ℚ := [1, 0, 0, 0, 0, 1, 0, 0, 0, 0, 1, 0, 0, 0, 0, 1]

/-- The `switch` of `FCDEffectPassState::SetDefaultValue`, FCDEffectPassState.cpp 60-358; the numbers after the names are the line of the first `case` label. `none` for the `default` label (354-357). -/
def writes (size : Nat) : Nat → Option (List Write)
  -- ALPHA_FUNC: 62
  | 0 => some [.mk 0 (.u32 0x207), .mk 4 (.float 0)]
  -- BLEND_FUNC: 67
  | 1 => some [.mk 0 (.u32 0x1), .mk 4 (.u32 0x0)]
  -- BLEND_FUNC_SEPARATE: 72
  | 2 => some [.mk 0 (.u32 0x1), .mk 4 (.u32 0x0), .mk 8 (.u32 0x1), .mk 12 (.u32 0x0)]
  -- BLEND_EQUATION: 79
  | 3 => some [.mk 0 (.u32 0x8006)]
  -- BLEND_EQUATION_SEPARATE: 83
  | 4 => some [.mk 0 (.u32 0x8006), .mk 4 (.u32 0x8006)]
  -- COLOR_MATERIAL: 88
  | 5 => some [.mk 0 (.u32 0x408), .mk 4 (.u32 0x1602)]
  -- CULL_FACE: 93
  | 6 => some [.mk 0 (.u32 0x405)]
  -- DEPTH_FUNC: 97
  | 7 => some [.mk 0 (.u32 0x207)]
  -- FOG_MODE: 101
  | 8 => some [.mk 0 (.u32 0x800)]
  -- FOG_COORD_SRC: 105
  | 9 => some [.mk 0 (.u32 0x8451)]
  -- FRONT_FACE: 109
  | 10 => some [.mk 0 (.u32 0x901)]
  -- LIGHT_MODEL_COLOR_CONTROL: 113
  | 11 => some [.mk 0 (.u32 0x81f9)]
  -- LOGIC_OP: 117
  | 12 => some [.mk 0 (.u32 0x1503)]
  -- POLYGON_MODE: 121
  | 13 => some [.mk 0 (.u32 0x408), .mk 4 (.u32 0x1b02)]
  -- SHADE_MODEL: 126
  | 14 => some [.mk 0 (.u32 0x1d01)]
  -- STENCIL_FUNC: 130
  | 15 => some [.mk 0 (.u32 0x207), .mk 4 (.u8 0), .mk 5 (.u8 0xFF)]
  -- STENCIL_OP: 136
  | 16 => some [.mk 0 (.u32 0x1e00), .mk 4 (.u32 0x1e00), .mk 8 (.u32 0x1e00)]
  -- STENCIL_FUNC_SEPARATE: 142
  | 17 => some [.mk 0 (.u32 0x207), .mk 4 (.u32 0x207), .mk 8 (.u8 0), .mk 9 (.u8 0xFF)]
  -- STENCIL_OP_SEPARATE: 149
  | 18 => some [.mk 0 (.u32 0x408), .mk 4 (.u32 0x1e00), .mk 8 (.u32 0x1e00), .mk 12 (.u32 0x1e00)]
  -- STENCIL_MASK_SEPARATE: 156
  | 19 => some [.mk 0 (.u32 0x408), .mk 4 (.u8 0xFF)]
  -- LIGHT_ENABLE: 161
  | 20 => some [.mk 0 (.u8 0), .mk 1 (.bool false)]
  -- LIGHT_AMBIENT: 166
  | 21 => some [.mk 0 (.u8 0), .mk 1 (.floats [0, 0, 0, 1])]
  -- LIGHT_DIFFUSE, LIGHT_SPECULAR, TEXTURE_ENV_COLOR, CLIP_PLANE: 171
  | 22 | 23 | 43 | 45 => some [.mk 0 (.u8 0), .mk 1 (.floats [0, 0, 0, 0])]
  -- LIGHT_POSITION: 179
  | 24 => some [.mk 0 (.u8 0), .mk 1 (.floats [0, 0, 1, 0])]
  -- LIGHT_CONSTANT_ATTENUATION: 184
  | 25 => some [.mk 0 (.u8 0), .mk 1 (.float 1)]
  -- LIGHT_LINEAR_ATTENUATION: 189
  | 26 => some [.mk 0 (.u8 0), .mk 1 (.float 0)]
  -- LIGHT_QUADRATIC_ATTENUATION: 194
  | 27 => some [.mk 0 (.u8 0), .mk 1 (.float 0)]
  -- LIGHT_SPOT_CUTOFF: 199
  | 28 => some [.mk 0 (.u8 0), .mk 1 (.float 180)]
  -- LIGHT_SPOT_DIRECTION: 204
  | 29 => some [.mk 0 (.u8 0), .mk 1 (.floats [0, 0, (-1)])]
  -- LIGHT_SPOT_EXPONENT: 209
  | 30 => some [.mk 0 (.u8 0), .mk 1 (.float 0)]
  -- TEXTURE1D, TEXTURE2D, TEXTURE3D, TEXTURECUBE, TEXTURERECT, TEXTUREDEPTH: 214
  | 31 | 32 | 33 | 34 | 35 | 36 => some [.mk 0 (.u8 0), .mk 1 (.u32 0)]
  -- TEXTURE1D_ENABLE, TEXTURE2D_ENABLE, TEXTURE3D_ENABLE, TEXTURECUBE_ENABLE, TEXTURERECT_ENABLE, TEXTUREDEPTH_ENABLE, CLIP_PLANE_ENABLE: 224
  | 37 | 38 | 39 | 40 | 41 | 42 | 46 => some [.mk 0 (.u8 0), .mk 1 (.bool false)]
  -- TEXTURE_ENV_MODE: 235
  | 44 => some [.mk 0 (.zeros size)]
  -- BLEND_COLOR, CLEAR_COLOR, FOG_COLOR, SCISSOR: 239
  | 47 | 48 | 58 | 76 => some [.mk 0 (.floats [0, 0, 0, 0])]
  -- LIGHT_MODEL_AMBIENT, MATERIAL_AMBIENT: 246
  | 59 | 63 => some [.mk 0 (.floats [2/10, 2/10, 2/10, 1])]
  -- MATERIAL_DIFFUSE: 251
  | 64 => some [.mk 0 (.floats [8/10, 8/10, 8/10, 1])]
  -- MATERIAL_EMISSION, MATERIAL_SPECULAR: 255
  | 65 | 67 => some [.mk 0 (.floats [0, 0, 0, 1])]
  -- POINT_DISTANCE_ATTENUATION: 260
  | 69 => some [.mk 0 (.floats [1, 0, 0])]
  -- DEPTH_BOUNDS, DEPTH_RANGE: 264
  | 52 | 54 => some [.mk 0 (.floats [0, 1])]
  -- POLYGON_OFFSET: 269
  | 74 => some [.mk 0 (.floats [0, 0])]
  -- DEPTH_MASK: 273
  | 53 => some [.mk 0 (.bool true)]
  -- CLEAR_STENCIL: 277
  | 49 => some [.mk 0 (.u32 0)]
  -- STENCIL_MASK: 281
  | 77 => some [.mk 0 (.u32 0xFFFFFFFF)]
  -- CLEAR_DEPTH, FOG_DENSITY, FOG_END, LINE_WIDTH, POINT_FADE_THRESHOLD_SIZE, POINT_SIZE, POINT_SIZE_MAX: 285
  | 50 | 55 | 57 | 62 | 70 | 71 | 73 => some [.mk 0 (.float 1)]
  -- FOG_START, MATERIAL_SHININESS, POINT_SIZE_MIN: 295
  | 56 | 66 | 72 => some [.mk 0 (.float 0)]
  -- COLOR_MASK: 301
  | 51 => some [.mk 0 (.bool true), .mk 1 (.bool true), .mk 2 (.bool true), .mk 3 (.bool true)]
  -- LINE_STIPPLE: 308
  | 61 => some [.mk 0 (.u16 1), .mk 2 (.u16 0xFF)]
  -- MODEL_VIEW_MATRIX, PROJECTION_MATRIX: 313
  | 68 | 75 => some [.mk 0 (.floats identity)]
  -- LIGHTING_ENABLE, ALPHA_TEST_ENABLE, AUTO_NORMAL_ENABLE, BLEND_ENABLE, COLOR_LOGIC_OP_ENABLE, CULL_FACE_ENABLE, DEPTH_BOUNDS_ENABLE, DEPTH_CLAMP_ENABLE, …: 318
  | 60 | 78 | 79 | 80 | 81 | 83 | 84 | 85 | 86 | 87 | 88 | 89 | 90 | 91 | 92 | 93 | 94 | 95 | 96 | 97 | 98 | 99 | 100 | 101 | 102 | 103 | 104 | 105 | 106 | 107 => some [.mk 0 (.bool false)]
  -- COLOR_MATERIAL_ENABLE: 351
  | 82 => some [.mk 0 (.bool true)]
  | _ => none

/-- `FCDEffectPassState::SetDefaultValue`, FCDEffectPassState.cpp 54-363. Unknown states: `FUFail(break)`, nothing is written. -/
def setDefault (t : Nat) (m : List Cell) : Option (List Cell) :=
  match writes m.length t with
  | some ws => ws.foldlM Write.run m
  | none => some m

/-- The size of the data array, FCDEffectPassState.cpp 44-45. -/
def dataSize (t : Nat) : Nat := if t < 108 then dataSizeTable.getD t 0 else 1

/-- The data of a new render state, constructor, FCDEffectPassState.cpp 38-52. -/
def construct (t : Nat) : Option (List Cell) := setDefault t (List.replicate (dataSize t) .raw)

/-- A render state: identity of the object, type and data (FCDEffectPassState.h 40-47). -/
structure RState where
  id : Nat
  type : Nat
  data : List Cell
  deriving DecidableEq

/-- `FCDEffectPassState::Clone` into a given state, FCDEffectPassState.cpp 372-383: `none` is the NULL returned when the sizes differ. -/
def RState.cloneInto (src dst : RState) : Option RState :=
  if src.data.length = dst.data.length then some { dst with data := src.data } else none

/-- A code inclusion, with its sub id (FCDEffectCode.h). -/
structure Code where
  id : Nat
  sid : Text
  deriving DecidableEq

/-- A shader of a pass (FCDEffectPassShader.h 62-67). The code is a tracked pointer; here with the sub id it has. -/
structure Shader where
  id : Nat
  isFragment : Bool := false
  name : Text := []
  target : Text := []
  options : Text := []
  bindings : List (Text × Text) := []
  code : Option Code := none
  deriving DecidableEq

/-- What a pass can see of its technique: the codes of the technique and, if the technique has a parent profile, those of the profile. -/
structure Tech where
  codes : List Code
  profile : Option (List Code)

/-- A pass (FCDEffectPass.h 48-50), with the next free identity for new objects. -/
structure Pass where
  name : Text := []
  shaders : List Shader := []
  states : List RState := []
  next : Nat := 0

/-- `FCDEffectPass::AddShader`, FCDEffectPass.cpp 39-45: a new shader affects vertices (FCDEffectPassShader.cpp 45). -/
def addShader (p : Pass) : Pass := { p with shaders := p.shaders ++ [{ id := p.next }], next := p.next + 1 }

/-- `FCDEffectPass::GetVertexShader`, FCDEffectPass.cpp 105-112. -/
def getVertex (p : Pass) : Option Shader := p.shaders.find? fun s => !s.isFragment

/-- `FCDEffectPass::GetFragmentShader`, FCDEffectPass.cpp 114-121. -/
def getFragment (p : Pass) : Option Shader := p.shaders.find? fun s => s.isFragment

/-- Releasing a shader takes it out of the container of its pass. -/
def releaseShader (p : Pass) (id : Nat) : Pass := { p with shaders := p.shaders.filter fun s => decide (s.id ≠ id) }

/-- The loops of `AddVertexShader` and `AddFragmentShader`, FCDEffectPass.cpp 52-55, 68-71; `none` when the fuel runs out. -/
def releaseAll (get : Pass → Option Shader) : Nat → Pass → Option Pass
  | 0, _ => none
  | n + 1, p =>
    match get p with
    | none => some p
    | some s => releaseAll get n (releaseShader p s.id)

/-- The shader just added is told what it affects, FCDEffectPassShader.h 85, 89. -/
def affects (p : Pass) (id : Nat) (f : Bool) : Pass :=
  { p with shaders := p.shaders.map fun s => if s.id = id then { s with isFragment := f } else s }

/-- The user sets the fields of a shader: name, target, options, what it affects, code and bindings (FCDEffectPassShader.h 85-172). -/
def editShader (p : Pass) (id : Nat) (v : Shader) : Pass :=
  { p with shaders := p.shaders.map fun s => if s.id = id then { v with id := s.id } else s }

/-- `FCDEffectPass::AddVertexShader`, FCDEffectPass.cpp 49-61. -/
def addVertex (n : Nat) (p : Pass) : Option Pass :=
  (releaseAll getVertex n p).map fun q => affects (addShader q) q.next false

/-- `FCDEffectPass::AddFragmentShader`, FCDEffectPass.cpp 65-77. -/
def addFragment (n : Nat) (p : Pass) : Option Pass :=
  (releaseAll getFragment n p).map fun q => affects (addShader q) q.next true

/-- The index at which `AddRenderState` inserts: the first state of larger type, FCDEffectPass.cpp 128-133. -/
def insertIndex (t : Nat) : List RState → Nat
  | [] => 0
  | s :: r => if t < s.type then 0 else insertIndex t r + 1

/-- `FCDEffectPass::AddRenderState`, FCDEffectPass.cpp 123-138; `none` when the constructor of the state goes wrong. -/
def addRenderState (p : Pass) (t : Nat) : Option Pass :=
  (construct t).map fun d =>
    { p with
      states := p.states.take (insertIndex t p.states) ++ ⟨p.next, t, d⟩ :: p.states.drop (insertIndex t p.states)
      next := p.next + 1 }

/-- `FCDEffectPass::FindRenderState`, FCDEffectPass.cpp 140-147. -/
def findRenderState (p : Pass) (t : Nat) : Option RState := p.states.find? fun s => decide (s.type = t)

/-- Releasing a state takes it out of the container of its pass. -/
def releaseState (p : Pass) (id : Nat) : Pass := { p with states := p.states.filter fun s => decide (s.id ≠ id) }

/-- The user writes over the data of a state (`GetData`, FCDEffectPassState.h 71), within its size. -/
def setData (p : Pass) (id : Nat) (d : List Cell) : Pass :=
  { p with states := p.states.map fun s => if s.id = id then { s with data := d } else s }

/-- `FCDEffectPassShader::AddBinding`, FCDEffectPassShader.cpp 75-80, and the two fields set by the caller. -/
def addBinding (s : Shader) (ref sym : Text) : Shader := { s with bindings := s.bindings ++ [(ref, sym)] }

/-- `FCDEffectPassShader::FindBindingReference`, FCDEffectPassShader.cpp 56-63. -/
def findReference (s : Shader) (r : Text) : Option (Text × Text) := s.bindings.find? fun b => decide (b.1 = r)

/-- `FCDEffectPassShader::FindBindingSymbol`, FCDEffectPassShader.cpp 65-72. -/
def findSymbol (s : Shader) (r : Text) : Option (Text × Text) := s.bindings.find? fun b => decide (b.2 = r)

/-- `FindCode` of techniques and profiles, FCDEffectTechnique.cpp 99-106, FCDEffectProfileFX.cpp 56-63. -/
def findCode (l : List Code) (sid : Text) : Option Code := l.find? fun c => decide (c.sid = sid)

/-- The end of `FCDEffectPassShader::Clone`, FCDEffectPassShader.cpp 100-104: the code of the clone. The outer `none` is undefined behaviour: the clone's pass has no technique, or the technique no profile. -/
def cloneCode (tech : Option Tech) (code old : Option Code) : Option (Option Code) :=
  match code with
  | none => some old
  | some c =>
    tech.bind fun t =>
      match findCode t.codes c.sid with
      | some d => some (some d)
      | none => t.profile.map fun l => findCode l c.sid

/-- `FCDEffectPassShader::Clone` into a given shader, FCDEffectPassShader.cpp 83-106; `tech` is the technique of the clone's pass. -/
def Shader.cloneInto (tech : Option Tech) (src dst : Shader) : Option Shader :=
  (cloneCode tech src.code dst.code).map fun c =>
    { dst with
      isFragment := src.isFragment, bindings := dst.bindings ++ src.bindings, target := src.target, options := src.options
      name := src.name, code := c }

/-- One turn of the first loop of `FCDEffectPass::Clone`, FCDEffectPass.cpp 87-91. -/
def cloneShader (tech : Option Tech) (q : Pass) (s : Shader) : Option Pass :=
  (s.cloneInto tech { id := q.next }).map fun c => { q with shaders := q.shaders ++ [c], next := q.next + 1 }

/-- The state with an identity is replaced by what `Clone` made of it; unchanged when `Clone` returned NULL. -/
def copyState (q : Pass) (id : Nat) (s : RState) : Pass :=
  { q with states := q.states.map fun d => if d.id = id then (s.cloneInto d).getD d else d }

/-- One turn of the second loop of `FCDEffectPass::Clone`, FCDEffectPass.cpp 95-99. -/
def cloneState (q : Pass) (s : RState) : Option Pass := (addRenderState q s.type).map fun q' => copyState q' q.next s

/-- `FCDEffectPass::Clone` into a pass whose technique is `tech`, FCDEffectPass.cpp 79-102. -/
def Pass.cloneInto (tech : Option Tech) (p q : Pass) : Option Pass :=
  (p.shaders.foldlM (cloneShader tech) { q with name := p.name }).bind fun q' => p.states.foldlM cloneState q'

end Verif.FPass
