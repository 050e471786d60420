import Verif.Pass

/-! # What a user expects of render states and passes

The documented structures are those in the comments of `FUDaePassState::State`, `/repo/FCollada/FUtils/FUDaeEnum.h` 742-868: fields one after the other, enumerated types four bytes long, each with its default
value. The table was generated from the comments, not from the code that sets the defaults. -/

namespace Verif.FPass

open Verif.FEff (Text text)

/-- A documented field with its default: enumerated types are written `u32`; `vec n l` is a vector of `n` floats of which the comment gives the components `l`; `text n l` is `char[n]`. -/
inductive Field where
  | u8 (n : Nat)
  | u16 (n : Nat)
  | u32 (n : Nat)
  | bool (b : Bool)
  | float (q : ℚ)
  | vec (n : Nat) (l : List ℚ)
  | identity4
  | text (n : Nat) (l : List Nat)

/-- The bytes of `n` in `k` bytes, least significant first. -/
def le : Nat → Nat → List Cell
  | 0, _ => []
  | k + 1, n => .byte (n % 256) :: le k (n / 256)

/-- The bytes of a float. -/
def ieee (q : ℚ) : List Cell := (List.range 4).map (.fl q)

/-- The bytes of a field; `none` where the comment gives no value. -/
def Field.cells : Field → List (Option Cell)
  | .u8 n => (le 1 n).map some
  | .u16 n => (le 2 n).map some
  | .u32 n => (le 4 n).map some
  | .bool b => [some (.byte b.toNat)]
  | .float q => (ieee q).map some
  | .vec n l => ((l.map ieee).flatten).map some ++ List.replicate (4 * (n - l.length)) none
  | .identity4 => (((List.range 16).map fun i => ieee (if i / 4 = i % 4 then 1 else 0)).flatten).map some
  | .text n l => (l.map fun c => some (.byte c)) ++ List.replicate (n - l.length) (some (.byte 0))

/-- The documented structures, by number of the state. -/
def documented : List (List Field) := [
  /- 0 ALPHA_FUNC -/ [.u32 0x207, .float 0],
  /- 1 BLEND_FUNC -/ [.u32 0x1, .u32 0x0],
  /- 2 BLEND_FUNC_SEPARATE -/ [.u32 0x1, .u32 0x0, .u32 0x1, .u32 0x0],
  /- 3 BLEND_EQUATION -/ [.u32 0x8006],
  /- 4 BLEND_EQUATION_SEPARATE -/ [.u32 0x8006, .u32 0x8006],
  /- 5 COLOR_MATERIAL -/ [.u32 0x408, .u32 0x1602],
  /- 6 CULL_FACE -/ [.u32 0x405],
  /- 7 DEPTH_FUNC -/ [.u32 0x207],
  /- 8 FOG_MODE -/ [.u32 0x800],
  /- 9 FOG_COORD_SRC -/ [.u32 0x8451],
  /- 10 FRONT_FACE -/ [.u32 0x901],
  /- 11 LIGHT_MODEL_COLOR_CONTROL -/ [.u32 0x81f9],
  /- 12 LOGIC_OP -/ [.u32 0x1503],
  /- 13 POLYGON_MODE -/ [.u32 0x408, .u32 0x1b02],
  /- 14 SHADE_MODEL -/ [.u32 0x1d01],
  /- 15 STENCIL_FUNC -/ [.u32 0x207, .u8 0, .u8 0xFF],
  /- 16 STENCIL_OP -/ [.u32 0x1e00, .u32 0x1e00, .u32 0x1e00],
  /- 17 STENCIL_FUNC_SEPARATE -/ [.u32 0x207, .u32 0x207, .u8 0, .u8 0xFF],
  /- 18 STENCIL_OP_SEPARATE -/ [.u32 0x408, .u32 0x1e00, .u32 0x1e00, .u32 0x1e00],
  /- 19 STENCIL_MASK_SEPARATE -/ [.u32 0x408, .u8 0xFF],
  /- 20 LIGHT_ENABLE -/ [.u8 0, .bool false],
  /- 21 LIGHT_AMBIENT -/ [.u8 0, .vec 4 [0, 0, 0, 1]],
  /- 22 LIGHT_DIFFUSE -/ [.u8 0, .vec 4 [0, 0, 0, 0]],
  /- 23 LIGHT_SPECULAR -/ [.u8 0, .vec 4 [0, 0, 0, 0]],
  /- 24 LIGHT_POSITION -/ [.u8 0, .vec 4 [0, 0, 1, 0]],
  /- 25 LIGHT_CONSTANT_ATTENUATION -/ [.u8 0, .float 1],
  /- 26 LIGHT_LINEAR_ATTENUATION -/ [.u8 0, .float 0],
  /- 27 LIGHT_QUADRATIC_ATTENUATION -/ [.u8 0, .float 0],
  /- 28 LIGHT_SPOT_CUTOFF -/ [.u8 0, .float 180],
  /- 29 LIGHT_SPOT_DIRECTION -/ [.u8 0, .vec 4 [0, 0, (-1)]],
  /- 30 LIGHT_SPOT_EXPONENT -/ [.u8 0, .float 0],
  /- 31 TEXTURE1D -/ [.u8 0, .u32 0],
  /- 32 TEXTURE2D -/ [.u8 0, .u32 0],
  /- 33 TEXTURE3D -/ [.u8 0, .u32 0],
  /- 34 TEXTURECUBE -/ [.u8 0, .u32 0],
  /- 35 TEXTURERECT -/ [.u8 0, .u32 0],
  /- 36 TEXTUREDEPTH -/ [.u8 0, .u32 0],
  /- 37 TEXTURE1D_ENABLE -/ [.u8 0, .bool false],
  /- 38 TEXTURE2D_ENABLE -/ [.u8 0, .bool false],
  /- 39 TEXTURE3D_ENABLE -/ [.u8 0, .bool false],
  /- 40 TEXTURECUBE_ENABLE -/ [.u8 0, .bool false],
  /- 41 TEXTURERECT_ENABLE -/ [.u8 0, .bool false],
  /- 42 TEXTUREDEPTH_ENABLE -/ [.u8 0, .bool false],
  /- 43 TEXTURE_ENV_COLOR -/ [.u8 0, .vec 4 [0, 0, 0, 0]],
  /- 44 TEXTURE_ENV_MODE -/ [.u8 0, .text 255 []],
  /- 45 CLIP_PLANE -/ [.u8 0, .vec 4 [0, 0, 0, 0]],
  /- 46 CLIP_PLANE_ENABLE -/ [.u8 0, .bool false],
  /- 47 BLEND_COLOR -/ [.vec 4 [0, 0, 0, 0]],
  /- 48 CLEAR_COLOR -/ [.vec 4 [0, 0, 0, 0]],
  /- 49 CLEAR_STENCIL -/ [.u32 0],
  /- 50 CLEAR_DEPTH -/ [.float 1],
  /- 51 COLOR_MASK -/ [.bool true, .bool true, .bool true, .bool true],
  /- 52 DEPTH_BOUNDS -/ [.vec 2 [0, 1]],
  /- 53 DEPTH_MASK -/ [.bool true],
  /- 54 DEPTH_RANGE -/ [.float 0, .float 1],
  /- 55 FOG_DENSITY -/ [.float 1],
  /- 56 FOG_START -/ [.float 0],
  /- 57 FOG_END -/ [.float 1],
  /- 58 FOG_COLOR -/ [.vec 4 [0, 0, 0, 0]],
  /- 59 LIGHT_MODEL_AMBIENT -/ [.vec 4 [2/10, 2/10, 2/10, 1]],
  /- 60 LIGHTING_ENABLE -/ [.bool false],
  /- 61 LINE_STIPPLE -/ [.u16 1, .u16 0xFF],
  /- 62 LINE_WIDTH -/ [.float 1],
  /- 63 MATERIAL_AMBIENT -/ [.vec 4 [2/10, 2/10, 2/10, 1]],
  /- 64 MATERIAL_DIFFUSE -/ [.vec 4 [8/10, 8/10, 8/10, 1]],
  /- 65 MATERIAL_EMISSION -/ [.vec 4 [0, 0, 0, 1]],
  /- 66 MATERIAL_SHININESS -/ [.float 0],
  /- 67 MATERIAL_SPECULAR -/ [.vec 4 [0, 0, 0, 1]],
  /- 68 MODEL_VIEW_MATRIX -/ [.identity4],
  /- 69 POINT_DISTANCE_ATTENUATION -/ [.vec 3 [1, 0, 0]],
  /- 70 POINT_FADE_THRESHOLD_SIZE -/ [.float 1],
  /- 71 POINT_SIZE -/ [.float 1],
  /- 72 POINT_SIZE_MIN -/ [.float 0],
  /- 73 POINT_SIZE_MAX -/ [.float 1],
  /- 74 POLYGON_OFFSET -/ [.float 0, .float 0],
  /- 75 PROJECTION_MATRIX -/ [.identity4],
  /- 76 SCISSOR -/ [.vec 4 [0, 0, 0, 0]],
  /- 77 STENCIL_MASK -/ [.u32 0xFFFFFFFF],
  /- 78 ALPHA_TEST_ENABLE -/ [.bool false],
  /- 79 AUTO_NORMAL_ENABLE -/ [.bool false],
  /- 80 BLEND_ENABLE -/ [.bool false],
  /- 81 COLOR_LOGIC_OP_ENABLE -/ [.bool false],
  /- 82 COLOR_MATERIAL_ENABLE -/ [.bool true],
  /- 83 CULL_FACE_ENABLE -/ [.bool false],
  /- 84 DEPTH_BOUNDS_ENABLE -/ [.bool false],
  /- 85 DEPTH_CLAMP_ENABLE -/ [.bool false],
  /- 86 DEPTH_TEST_ENABLE -/ [.bool false],
  /- 87 DITHER_ENABLE -/ [.bool false],
  /- 88 FOG_ENABLE -/ [.bool false],
  /- 89 LIGHT_MODEL_LOCAL_VIEWER_ENABLE -/ [.bool false],
  /- 90 LIGHT_MODEL_TWO_SIDE_ENABLE -/ [.bool false],
  /- 91 LINE_SMOOTH_ENABLE -/ [.bool false],
  /- 92 LINE_STIPPLE_ENABLE -/ [.bool false],
  /- 93 LOGIC_OP_ENABLE -/ [.bool false],
  /- 94 MULTISAMPLE_ENABLE -/ [.bool false],
  /- 95 NORMALIZE_ENABLE -/ [.bool false],
  /- 96 POINT_SMOOTH_ENABLE -/ [.bool false],
  /- 97 POLYGON_OFFSET_FILL_ENABLE -/ [.bool false],
  /- 98 POLYGON_OFFSET_LINE_ENABLE -/ [.bool false],
  /- 99 POLYGON_OFFSET_POINT_ENABLE -/ [.bool false],
  /- 100 POLYGON_SMOOTH_ENABLE -/ [.bool false],
  /- 101 POLYGON_STIPPLE_ENABLE -/ [.bool false],
  /- 102 RESCALE_NORMAL_ENABLE -/ [.bool false],
  /- 103 SAMPLE_ALPHA_TO_COVERAGE_ENABLE -/ [.bool false],
  /- 104 SAMPLE_ALPHA_TO_ONE_ENABLE -/ [.bool false],
  /- 105 SAMPLE_COVERAGE_ENABLE -/ [.bool false],
  /- 106 SCISSOR_TEST_ENABLE -/ [.bool false],
  /- 107 STENCIL_TEST_ENABLE -/ [.bool false]]

/-- The documented bytes of a state. -/
def layout (t : Nat) : List (Option Cell) := ((documented.getD t []).map Field.cells).flatten

/-- The data are as documented: as many bytes, all of them written, and those with a documented value have it. -/
def AsDocumented (t : Nat) (m : List Cell) : Prop :=
  m.length = (layout t).length ∧ (∀ c ∈ m, c ≠ .raw) ∧ ∀ (i : Nat) (c : Cell), (layout t)[i]? = some (some c) → m[i]? = some c

/-- What a user does with a pass. -/
inductive Op where
  | addShader
  | addVertex
  | addFragment
  | releaseShader (id : Nat)
  | editShader (id : Nat) (v : Shader)
  | addState (t : Nat)
  | releaseState (id : Nat)
  | setData (id : Nat) (d : List Cell)

/-- The data a user writes fit the state. -/
def Legal (p : Pass) : Op → Prop
  | .setData id d => ∀ s ∈ p.states, s.id = id → d.length = s.data.length
  | _ => True

/-- A step of a user: the pass before and after. -/
inductive Step (p : Pass) : Op → Pass → Prop where
  | addShader : Step p .addShader (addShader p)
  | addVertex (n : Nat) (q : Pass) : addVertex n p = some q → Step p .addVertex q
  | addFragment (n : Nat) (q : Pass) : addFragment n p = some q → Step p .addFragment q
  | releaseShader (id : Nat) : Step p (.releaseShader id) (releaseShader p id)
  | editShader (id : Nat) (v : Shader) : Step p (.editShader id v) (editShader p id v)
  | addState (t : Nat) (q : Pass) : addRenderState p t = some q → Step p (.addState t) q
  | releaseState (id : Nat) : Step p (.releaseState id) (releaseState p id)
  | setData (id : Nat) (d : List Cell) : Step p (.setData id d) (setData p id d)

/-- The states added and not released, in the order in which they were added, after a step. -/
def log (p : Pass) (l : List RState) : Op → List RState
  | .addState t => l ++ (construct t).toList.map (RState.mk p.next t)
  | .releaseState id => l.filter fun s => decide (s.id ≠ id)
  | .setData id d => l.map fun s => if s.id = id then { s with data := d } else s
  | _ => l

/-- The passes a user can make, each with the states added and not released in the order in which they were added. -/
inductive Reach : Pass → List RState → Prop where
  | new : Reach {} []
  | step {p q : Pass} {l : List RState} {o : Op} : Reach p l → Legal p o → Step p o q → Reach q (log p l o)

/-- The states are in the order of their types. -/
def Sorted (l : List RState) : Prop := l.Pairwise fun a b => a.type ≤ b.type

/-- What a user sees of a shader, apart from its code. -/
def Shader.seen (s : Shader) : Bool × Text × Text × Text × List (Text × Text) := (s.isFragment, s.name, s.target, s.options, s.bindings)

/-- What a user sees of a render state. -/
def RState.seen (s : RState) : Nat × List Cell := (s.type, s.data)

/-- The codes a pass can use: those of its technique, then those of the profile. -/
def Tech.all (t : Tech) : List Code := t.codes ++ t.profile.getD []

/-- The code a clone is to use: the first within its reach with the sub id of the code of the original. -/
def codeFor (tech : Tech) (s : Shader) : Option Code := s.code.bind fun c => findCode tech.all c.sid

/-- Each code of the pass can be looked for: the technique of the clone has it, or has a profile. -/
def CanLook (tech : Tech) (s : Shader) : Prop := ∀ c, s.code = some c → tech.profile.isSome ∨ (findCode tech.codes c.sid).isSome

end Verif.FPass
