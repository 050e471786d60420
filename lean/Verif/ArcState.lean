import Verif.Pass
import Verif.Arc

/-!
# Saving and loading of render states

Models `WriteEffectPassState` (`/repo/FColladaPlugins/FArchiveXML/FAXMaterialExport.cpp` 571-853) and `LoadEffectPassState` (`FAXMaterialImport.cpp` 850-1143), with the names of the enumerated values
(`/repo/FCollada/FUtils/FUDaeEnum.cpp` 336-938). The data of a render state are those of `Verif.FPass`. The tables were generated from the C++ text, that of the writer and that of the loader separately.
-/

namespace Verif.FArc

open Verif.FEff (Text text)
open Verif.FConv (Ov)
open Verif.FPass (Cell)

/-- The enumerations of values of render states, FUDaeEnum.h 369-725. -/
inductive EKind where
  | function
  | stencilOperation
  | blendType
  | faceType
  | blendEquation
  | materialType
  | fogType
  | fogCoordinateType
  | frontFaceType
  | logicOperation
  | polygonMode
  | shadeModel
  | lightModelColorControlType
  deriving DecidableEq

/-- The values handled by the macros `NODE_TYPE`, `NODE_INDEX` and `NODE_ENUM` of both functions, and the three states handled without: `chars` is the text of TEXTURE_ENV_MODE, `bools` the four booleans of
COLOR_MASK, `u16s` the two numbers of LINE_STIPPLE. -/
inductive FKind where
  | enum (e : EKind)
  | u8
  | u32
  | bool
  | float
  | vec (n : Nat)
  | mat
  | bools
  | u16s
  | chars
  deriving DecidableEq

/-- A value in memory. -/
inductive Scal where
  | enum (e : EKind)
  | u8
  | u16
  | u32
  | bool
  | float
  | chars
  deriving DecidableEq

/-- What a value in memory holds. -/
inductive SV where
  | nat (n : Nat)
  | bool (b : Bool)
  | fl (q : ℚ)
  | str (t : Text)
  deriving DecidableEq

/-- One use of a macro: the child element, if any, whether the attribute is `index` rather than `value`, the offset in the data, and the value. -/
structure Fld where
  child : Option String
  index : Bool
  off : Nat
  kind : FKind
  deriving DecidableEq

/-- The attribute of a field. -/
def Fld.attr (f : Fld) : Text := if f.index then text "index" else text "value"

/-- The values in memory that make up a field: `FMVector2`, `FMVector3`, `FMVector4` and `FMMatrix44` are arrays of floats. -/
def FKind.scal : FKind → List Scal
  | .enum e => [.enum e]
  | .u8 => [.u8]
  | .u32 => [.u32]
  | .bool => [.bool]
  | .float => [.float]
  | .vec n => List.replicate n .float
  | .mat => List.replicate 16 .float
  | .bools => [.bool, .bool, .bool, .bool]
  | .u16s => [.u16, .u16]
  | .chars => [.chars]

/-! ## Names of enumerated values -/

/-- The functions `ToString` of FUDaeEnum.cpp: the named values; the numbers after the dashes are lines. -/
def saveNames : EKind → List (Nat × String)
  -- 351-366
  | .function => [(0x200, "NEVER"), (0x201, "LESS"), (0x202, "EQUAL"), (0x203, "LEQUAL"), (0x204, "GREATER"), (0x205, "NOTEQUAL"), (0x206, "GEQUAL"), (0x207, "ALWAYS")]
  -- 384-399
  | .stencilOperation => [(0x1e00, "KEEP"), (0x0, "ZERO"), (0x1e01, "REPLACE"), (0x1e02, "INCR"), (0x1e03, "DECR"), (0x1e0a, "INVERT"), (0x8507, "INCR_WRAP"), (0x8508, "DECR_WRAP")]
  -- 424-446
  | .blendType => [(0x0, "ZERO"), (0x1, "ONE"), (0x300, "SRC_COLOR"), (0x301, "ONE_MINUS_SRC_COLOR"), (0x306, "DEST_COLOR"), (0x307, "ONE_MINUS_DEST_COLOR"), (0x302, "SRC_ALPHA"), (0x303, "ONE_MINUS_SRC_ALPHA"), (0x304, "DEST_ALPHA"), (0x305, "ONE_MINUS_DEST_ALPHA"), (0x8001, "CONSTANT_COLOR"), (0x8002, "ONE_MINUS_CONSTANT_COLOR"), (0x8003, "CONSTANT_ALPHA"), (0x8004, "ONE_MINUS_CONSTANT_ALPHA"), (0x308, "SRC_ALPHA_SATURATE")]
  -- 460-470
  | .faceType => [(0x404, "FRONT"), (0x405, "BACK"), (0x408, "FRONT_AND_BACK")]
  -- 485-497
  | .blendEquation => [(0x8006, "FUNC_ADD"), (0x800a, "FUNC_SUBTRACT"), (0x800b, "FUNC_REVERSE_SUBTRACT"), (0x8007, "MIN"), (0x8008, "MAX")]
  -- 512-524
  | .materialType => [(0x1600, "EMISSION"), (0x1200, "AMBIENT"), (0x1201, "DIFFUSE"), (0x1202, "SPECULAR"), (0x1602, "AMBIENT_AND_DIFFUSE")]
  -- 537-547
  | .fogType => [(0x2601, "LINEAR"), (0x800, "EXP"), (0x801, "EXP2")]
  -- 559-568
  | .fogCoordinateType => [(0x8451, "FOG_COORDINATE"), (0x8452, "FRAGMENT_DEPTH")]
  -- 580-589
  | .frontFaceType => [(0x900, "CW"), (0x901, "CCW")]
  -- 616-638
  | .logicOperation => [(0x1500, "CLEAR"), (0x1501, "AND"), (0x1502, "AND_REVERSE"), (0x1503, "COPY"), (0x1504, "AND_INVERTED"), (0x1505, "NOOP"), (0x1506, "XOR"), (0x1507, "OR"), (0x1508, "NOR"), (0x1509, "EQUIV"), (0x150a, "INVERT"), (0x150b, "OR_REVERSE"), (0x150c, "COPY_INVERTED"), (0x150e, "NAND"), (0x150f, "SET")]
  -- 652-662
  | .polygonMode => [(0x1b00, "POINT"), (0x1b01, "LINE"), (0x1b02, "FILL")]
  -- 675-684
  | .shadeModel => [(0x1d00, "FLAT"), (0x1d01, "SMOOTH")]
  -- 696-705
  | .lightModelColorControlType => [(0x81f9, "SINGLE_COLOR"), (0x81fa, "SEPARATE_SPECULAR_COLOR")]

/-- The functions `FromString` of FUDaeEnum.cpp: the names, in the order in which they are compared. -/
def loadNames : EKind → List (String × Nat)
  -- 338-349
  | .function => [("NEVER", 0x200), ("LESS", 0x201), ("EQUAL", 0x202), ("LEQUAL", 0x203), ("GREATER", 0x204), ("NOTEQUAL", 0x205), ("GEQUAL", 0x206), ("ALWAYS", 0x207)]
  -- 371-382
  | .stencilOperation => [("KEEP", 0x1e00), ("ZERO", 0x0), ("REPLACE", 0x1e01), ("INCR", 0x1e02), ("DECR", 0x1e03), ("INVERT", 0x1e0a), ("INCR_WRAP", 0x8507), ("DECR_WRAP", 0x8508)]
  -- 404-422
  | .blendType => [("ZERO", 0x0), ("ONE", 0x1), ("SRC_COLOR", 0x300), ("ONE_MINUS_SRC_COLOR", 0x301), ("DEST_COLOR", 0x306), ("ONE_MINUS_DEST_COLOR", 0x307), ("SRC_ALPHA", 0x302), ("ONE_MINUS_SRC_ALPHA", 0x303), ("DEST_ALPHA", 0x304), ("ONE_MINUS_DEST_ALPHA", 0x305), ("CONSTANT_COLOR", 0x8001), ("ONE_MINUS_CONSTANT_COLOR", 0x8002), ("CONSTANT_ALPHA", 0x8003), ("ONE_MINUS_CONSTANT_ALPHA", 0x8004), ("SRC_ALPHA_SATURATE", 0x308)]
  -- 452-458
  | .faceType => [("FRONT", 0x404), ("BACK", 0x405), ("FRONT_AND_BACK", 0x408)]
  -- 475-483
  | .blendEquation => [("FUNC_ADD", 0x8006), ("FUNC_SUBTRACT", 0x800a), ("FUNC_REVERSE_SUBTRACT", 0x800b), ("MIN", 0x8007), ("MAX", 0x8008)]
  -- 502-510
  | .materialType => [("EMISSION", 0x1600), ("AMBIENT", 0x1200), ("DIFFUSE", 0x1201), ("SPECULAR", 0x1202), ("AMBIENT_AND_DIFFUSE", 0x1602)]
  -- 529-535
  | .fogType => [("LINEAR", 0x2601), ("EXP", 0x800), ("EXP2", 0x801)]
  -- 552-557
  | .fogCoordinateType => [("FOG_COORDINATE", 0x8451), ("FRAGMENT_DEPTH", 0x8452)]
  -- 573-578
  | .frontFaceType => [("CW", 0x900), ("CCW", 0x901)]
  -- 596-614
  | .logicOperation => [("CLEAR", 0x1500), ("AND", 0x1501), ("AND_REVERSE", 0x1502), ("COPY", 0x1503), ("AND_INVERTED", 0x1504), ("NOOP", 0x1505), ("XOR", 0x1506), ("OR", 0x1507), ("NOR", 0x1508), ("EQUIV", 0x1509), ("INVERT", 0x150a), ("OR_REVERSE", 0x150b), ("COPY_INVERTED", 0x150c), ("NAND", 0x150e), ("SET", 0x150f)]
  -- 644-650
  | .polygonMode => [("POINT", 0x1b00), ("LINE", 0x1b01), ("FILL", 0x1b02)]
  -- 668-673
  | .shadeModel => [("FLAT", 0x1d00), ("SMOOTH", 0x1d01)]
  -- 689-694
  | .lightModelColorControlType => [("SINGLE_COLOR", 0x81f9), ("SEPARATE_SPECULAR_COLOR", 0x81fa)]

/-- The values `INVALID`, FUDaeEnum.h 385-724. -/
def invalidOf : EKind → Nat
  | .function => 0x208
  | .stencilOperation => 0x8509
  | .blendType => 0x309
  | .faceType => 0x409
  | .blendEquation => 0x8009
  | .materialType => 0x1603
  | .fogType => 0x802
  | .fogCoordinateType => 0x8453
  | .frontFaceType => 0x902
  | .logicOperation => 0x1510
  | .polygonMode => 0x1b03
  | .shadeModel => 0x1d02
  | .lightModelColorControlType => 0x81fb

/-- The text of a value: `DAEERR_UNKNOWN_INPUT` when it has no name. -/
def enumText (e : EKind) (n : Nat) : Text := text (((saveNames e).lookup n).getD "UNKNOWN")

/-- The value of a text. -/
def enumOf (e : EKind) (t : Text) : Nat := (((loadNames e).find? fun x => decide (text x.1 = t)).map (·.2)).getD (invalidOf e)

/-- `FUDaePassState::ToString`, FUDaeEnum.cpp 823-938, by number. -/
def stateNames : List String :=
  ["alpha_func", "blend_func", "blend_func_separate", "blend_equation", "blend_equation_separate", "color_material",
   "cull_face", "depth_func", "fog_mode", "fog_coord_src", "front_face", "light_model_color_control",
   "logic_op", "polygon_mode", "shade_model", "stencil_func", "stencil_op", "stencil_func_separate",
   "stencil_op_separate", "stencil_mask_separate", "light_enable", "light_ambient", "light_diffuse", "light_specular",
   "light_position", "light_constant_attenuation", "light_linear_attenuation", "light_quadratic_attenuation", "light_spot_cutoff", "light_spot_direction",
   "light_spot_exponent", "texture1D", "texture2D", "texture3D", "textureCUBE", "textureRECT",
   "textureDEPTH", "texture1D_enable", "texture2D_enable", "texture3D_enable", "textureCUBE_enable", "textureRECT_enable",
   "textureDEPTH_enable", "texture_env_color", "texture_env_mode", "clip_plane", "clip_plane_enable", "blend_color",
   "clear_color", "clear_stencil", "clear_depth", "color_mask", "depth_bounds", "depth_mask",
   "depth_range", "fog_density", "fog_start", "fog_end", "fog_color", "light_model_ambient",
   "lighting_enable", "line_stipple", "line_width", "material_ambient", "material_diffuse", "material_emission",
   "material_shininess", "material_specular", "model_view_matrix", "point_distance_attenuation", "point_fade_threshold_size", "point_size",
   "point_size_min", "point_size_max", "polygon_offset", "projection_matrix", "scissor", "stencil_mask",
   "alpha_test_enable", "auto_normal_enable", "blend_enable", "color_logic_op_enable", "color_material_enable", "cull_face_enable",
   "depth_bounds_enable", "depth_clamp_enable", "depth_test_enable", "dither_enable", "fog_enable", "light_model_local_viewer_enable",
   "light_model_two_side_enable", "line_smooth_enable", "line_stipple_enable", "logic_op_enable", "multisample_enable", "normalize_enable",
   "point_smooth_enable", "polygon_offset_fill_enable", "polygon_offset_line_enable", "polygon_offset_point_enable", "polygon_smooth_enable", "polygon_stipple_enable",
   "rescale_normal_enable", "sample_alpha_to_coverage_enable", "sample_alpha_to_one_enable", "sample_coverage_enable", "scissor_test_enable", "stencil_test_enable"]

/-- `FUDaePassState::FromString`, FUDaeEnum.cpp 710-821. -/
def stateCodes : List (String × Nat) :=
  [("alpha_func", 0), ("blend_func", 1), ("blend_func_separate", 2), ("blend_equation", 3), ("blend_equation_separate", 4), ("color_material", 5),
   ("cull_face", 6), ("depth_func", 7), ("fog_mode", 8), ("fog_coord_src", 9), ("front_face", 10), ("light_model_color_control", 11),
   ("logic_op", 12), ("polygon_mode", 13), ("shade_model", 14), ("stencil_func", 15), ("stencil_op", 16), ("stencil_func_separate", 17),
   ("stencil_op_separate", 18), ("stencil_mask_separate", 19), ("light_enable", 20), ("light_ambient", 21), ("light_diffuse", 22), ("light_specular", 23),
   ("light_position", 24), ("light_constant_attenuation", 25), ("light_linear_attenuation", 26), ("light_quadratic_attenuation", 27), ("light_spot_cutoff", 28), ("light_spot_direction", 29),
   ("light_spot_exponent", 30), ("texture1D", 31), ("texture2D", 32), ("texture3D", 33), ("textureCUBE", 34), ("textureRECT", 35),
   ("textureDEPTH", 36), ("texture1D_enable", 37), ("texture2D_enable", 38), ("texture3D_enable", 39), ("textureCUBE_enable", 40), ("textureRECT_enable", 41),
   ("textureDEPTH_enable", 42), ("texture_env_color", 43), ("texture_env_mode", 44), ("clip_plane", 45), ("clip_plane_enable", 46), ("blend_color", 47),
   ("clear_color", 48), ("clear_stencil", 49), ("clear_depth", 50), ("color_mask", 51), ("depth_bounds", 52), ("depth_mask", 53),
   ("depth_range", 54), ("fog_density", 55), ("fog_start", 56), ("fog_end", 57), ("fog_color", 58), ("light_model_ambient", 59),
   ("lighting_enable", 60), ("line_stipple", 61), ("line_width", 62), ("material_ambient", 63), ("material_diffuse", 64), ("material_emission", 65),
   ("material_shininess", 66), ("material_specular", 67), ("model_view_matrix", 68), ("point_distance_attenuation", 69), ("point_fade_threshold_size", 70), ("point_size", 71),
   ("point_size_min", 72), ("point_size_max", 73), ("polygon_offset", 74), ("projection_matrix", 75), ("scissor", 76), ("stencil_mask", 77),
   ("alpha_test_enable", 78), ("auto_normal_enable", 79), ("blend_enable", 80), ("color_logic_op_enable", 81), ("color_material_enable", 82), ("cull_face_enable", 83),
   ("depth_bounds_enable", 84), ("depth_clamp_enable", 85), ("depth_test_enable", 86), ("dither_enable", 87), ("fog_enable", 88), ("light_model_local_viewer_enable", 89),
   ("light_model_two_side_enable", 90), ("line_smooth_enable", 91), ("line_stipple_enable", 92), ("logic_op_enable", 93), ("multisample_enable", 94), ("normalize_enable", 95),
   ("point_smooth_enable", 96), ("polygon_offset_fill_enable", 97), ("polygon_offset_line_enable", 98), ("polygon_offset_point_enable", 99), ("polygon_smooth_enable", 100), ("polygon_stipple_enable", 101),
   ("rescale_normal_enable", 102), ("sample_alpha_to_coverage_enable", 103), ("sample_alpha_to_one_enable", 104), ("sample_coverage_enable", 105), ("scissor_test_enable", 106), ("stencil_test_enable", 107)]

/-- The element of a render state; `DAEERR_UNKNOWN_ELEMENT` for a number that is not a state. -/
def stateText (t : Nat) : Text := text (stateNames.getD t "unknown")

/-- The render state of an element. -/
def stateOf (t : Text) : Option Nat := (stateCodes.find? fun x => decide (text x.1 = t)).map (·.2)

/-! ## Memory -/

/-- The character of a byte and the byte of a character (`char` is signed). -/
def charOf (n : Nat) : Verif.FStr.Ch := if n < 128 then (n : Int) else (n : Int) - 256

/-- The byte of a character. -/
def byteOf (c : Verif.FStr.Ch) : Nat := (c % 256).toNat

/-- `std::char_traits<char>::length` and the copy, FUString.h 69-79: the characters up to the first zero; `none` when there is none in the data. -/
def cString : List Cell → Option Text
  | .byte 0 :: _ => some []
  | .byte n :: r => (cString r).map fun t => charOf n :: t
  | _ => none

/-- A value read from memory, and the memory behind it. `none`: a byte that was not written, a `bool` that is neither 0 nor 1, or bytes that are not those of one float. For the text of TEXTURE_ENV_MODE at most
254 characters are taken (FAXMaterialExport.cpp 742). -/
def readScal : Scal → List Cell → Option (SV × List Cell)
  | .u8, .byte a :: r => some (.nat a, r)
  | .u16, .byte a :: .byte b :: r => some (.nat (a + 256 * b), r)
  | .u32, .byte a :: .byte b :: .byte c :: .byte d :: r => some (.nat (a + 256 * b + 65536 * c + 16777216 * d), r)
  | .enum _, .byte a :: .byte b :: .byte c :: .byte d :: r => some (.nat (a + 256 * b + 65536 * c + 16777216 * d), r)
  | .bool, .byte 0 :: r => some (.bool false, r)
  | .bool, .byte 1 :: r => some (.bool true, r)
  | .float, .fl a 0 :: .fl b 1 :: .fl c 2 :: .fl d 3 :: r => if a = b ∧ a = c ∧ a = d then some (.fl a, r) else none
  | .chars, l => (cString l).map fun t => (.str (t.take 254), [])
  | _, _ => none

/-- The values one after the other. -/
def readScals : List Scal → List Cell → Option (List SV)
  | [], _ => some []
  | s :: ss, l => (readScal s l).bind fun r => (readScals ss r.2).map fun vs => r.1 :: vs

/-- The bytes of a value. Other combinations of the arguments do not occur. -/
def scalBytes : Scal → SV → List Cell
  | .u8, .nat n => (FPass.Val.u8 n).bytes
  | .u16, .nat n => (FPass.Val.u16 n).bytes
  | .u32, .nat n => (FPass.Val.u32 n).bytes
  | .enum _, .nat n => (FPass.Val.u32 n).bytes
  | .bool, .bool b => (FPass.Val.bool b).bytes
  | .float, .fl q => (FPass.Val.float q).bytes
  | .chars, .str t => t.map fun c => .byte (byteOf c)
  | _, _ => []

/-- The bytes of values one after the other. -/
def scalsBytes : List Scal → List SV → List Cell
  | s :: ss, v :: vs => scalBytes s v ++ scalsBytes ss vs
  | _, _ => []

/-- Bytes written at an offset; `none`, undefined behaviour, outside of the data. -/
def putBytes (m : List Cell) (off : Nat) (bs : List Cell) : Option (List Cell) :=
  if off + bs.length ≤ m.length then some (m.take off ++ bs ++ m.drop (off + bs.length)) else none

/-! ## Texts -/

/-- The floats among the values. -/
def svFloats (vs : List SV) : List ℚ := vs.filterMap fun v => match v with | .fl q => some q | _ => none

/-- The matrix at an address: `m[i][j]` is the float at place `4 i + j`. -/
def memMat (l : List ℚ) : FConv.Mat := fun i j => l.getD (4 * i.val + j.val) 0

/-- The floats of a matrix in memory. -/
def matMem (m : FConv.Mat) : List ℚ := [m 0 0, m 0 1, m 0 2, m 0 3, m 1 0, m 1 1, m 1 2, m 1 3, m 2 0, m 2 1, m 2 2, m 2 3, m 3 0, m 3 1, m 3 2, m 3 3]

/-- `builder.set(bool)`: the number of a boolean. -/
def bitText (b : Bool) : Text := if b then text "1" else text "0"

/-- The text of a value, FAXMaterialExport.cpp 578-583 and, for the last three, 740-744, 786-798. Other combinations of the arguments do not occur. -/
def fldText (fmt : ℚ → Text) : FKind → List SV → Text
  | .enum e, [.nat n] => enumText e n
  | .u8, [.nat n] => natText n
  | .u32, [.nat n] => natText n
  | .bool, [.bool b] => bitText b
  | .float, [.fl q] => numText fmt q
  | .vec _, vs => numsText fmt (svFloats vs)
  | .mat, vs => numsText fmt (FConv.matEntries (memMat (svFloats vs)))
  | .bools, [.bool a, .bool b, .bool c, .bool d] => wordsText [bitText a, bitText b, bitText c, bitText d]
  | .u16s, [.nat a, .nat b] => wordsText [natText a, natText b]
  | .chars, [.str t] => t
  | _, _ => []

/-- The value of a text, FAXMaterialImport.cpp 856-864 and, for the last three, 1020-1025, 1067-1089: `some none` when the data are left alone. The matrix of an empty text is not set (`none`). -/
def fldOf (ov : Ov) : FKind → Text → Option (Option (List SV))
  | .enum e, t => some (some [.nat (enumOf e t)])
  | .u8, t => (readNat t).map fun n => some [.nat (n % 256)]
  | .u32, t => (readNat t).map fun n => some [.nat n]
  | .bool, t => (readBool t).map fun b => some [.bool b]
  | .float, t => (readNum ov t).map fun q => some [.fl q]
  | .vec n, t => ((if n = 4 then FConv.toVector4 ov (t ++ [0]) else FConv.toVector ov n (t ++ [0])).map Prod.fst).map fun l => some (l.map .fl)
  | .mat, t => if t = [] then none else (FConv.toMatrix ov (t ++ [0]) identity).map fun m => some ((matMem m.1).map .fl)
  | .bools, t => (FConv.toBooleanList (t ++ [0])).map fun l => if 4 ≤ l.length then some ((l.take 4).map .bool) else none
  | .u16s, t => (FConv.toList FConv.toUInt32 0 (t ++ [0]) []).map fun l => if 2 ≤ l.length then some ((l.take 2).map fun n => .nat (n % 65536)) else none
  | .chars, t => some (some [.str (t.take 255)])

/-! ## States -/

/-- The `switch` of `WriteEffectPassState`, FAXMaterialExport.cpp 593-844; the numbers after the names are the line of the first `case` label. -/
def saveTable : Nat → List Fld
  -- ALPHA_FUNC: 595
  | 0 => [⟨some "func", false, 0, .enum .function⟩, ⟨some "value", false, 4, .float⟩]
  -- BLEND_FUNC: 600
  | 1 => [⟨some "src", false, 0, .enum .blendType⟩, ⟨some "dest", false, 4, .enum .blendType⟩]
  -- BLEND_FUNC_SEPARATE: 605
  | 2 => [⟨some "src_rgb", false, 0, .enum .blendType⟩, ⟨some "dest_rgb", false, 4, .enum .blendType⟩, ⟨some "src_alpha", false, 8, .enum .blendType⟩, ⟨some "dest_alpha", false, 12, .enum .blendType⟩]
  -- BLEND_EQUATION: 612
  | 3 => [⟨none, false, 0, .enum .blendEquation⟩]
  -- BLEND_EQUATION_SEPARATE: 616
  | 4 => [⟨some "rgb", false, 0, .enum .blendEquation⟩, ⟨some "alpha", false, 4, .enum .blendEquation⟩]
  -- COLOR_MATERIAL: 621
  | 5 => [⟨some "face", false, 0, .enum .faceType⟩, ⟨some "mode", false, 4, .enum .materialType⟩]
  -- CULL_FACE: 626
  | 6 => [⟨none, false, 0, .enum .faceType⟩]
  -- DEPTH_FUNC: 630
  | 7 => [⟨none, false, 0, .enum .function⟩]
  -- FOG_MODE: 634
  | 8 => [⟨none, false, 0, .enum .fogType⟩]
  -- FOG_COORD_SRC: 638
  | 9 => [⟨none, false, 0, .enum .fogCoordinateType⟩]
  -- FRONT_FACE: 642
  | 10 => [⟨none, false, 0, .enum .frontFaceType⟩]
  -- LIGHT_MODEL_COLOR_CONTROL: 646
  | 11 => [⟨none, false, 0, .enum .lightModelColorControlType⟩]
  -- LOGIC_OP: 650
  | 12 => [⟨none, false, 0, .enum .logicOperation⟩]
  -- POLYGON_MODE: 654
  | 13 => [⟨some "face", false, 0, .enum .faceType⟩, ⟨some "mode", false, 4, .enum .polygonMode⟩]
  -- SHADE_MODEL: 659
  | 14 => [⟨none, false, 0, .enum .shadeModel⟩]
  -- STENCIL_FUNC: 663
  | 15 => [⟨some "func", false, 0, .enum .function⟩, ⟨some "ref", false, 4, .u8⟩, ⟨some "mask", false, 5, .u8⟩]
  -- STENCIL_OP: 669
  | 16 => [⟨some "fail", false, 0, .enum .stencilOperation⟩, ⟨some "zfail", false, 4, .enum .stencilOperation⟩, ⟨some "zpass", false, 8, .enum .stencilOperation⟩]
  -- STENCIL_FUNC_SEPARATE: 675
  | 17 => [⟨some "front", false, 0, .enum .function⟩, ⟨some "back", false, 4, .enum .function⟩, ⟨some "ref", false, 8, .u8⟩, ⟨some "mask", false, 9, .u8⟩]
  -- STENCIL_OP_SEPARATE: 682
  | 18 => [⟨some "face", false, 0, .enum .faceType⟩, ⟨some "fail", false, 4, .enum .stencilOperation⟩, ⟨some "zfail", false, 8, .enum .stencilOperation⟩, ⟨some "zpass", false, 12, .enum .stencilOperation⟩]
  -- STENCIL_MASK_SEPARATE: 689
  | 19 => [⟨some "face", false, 0, .enum .faceType⟩, ⟨some "mask", false, 4, .u8⟩]
  -- LIGHT_AMBIENT, LIGHT_DIFFUSE, LIGHT_SPECULAR, LIGHT_POSITION, TEXTURE_ENV_COLOR, CLIP_PLANE: 694
  | 21 | 22 | 23 | 24 | 43 | 45 => [⟨none, true, 0, .u8⟩, ⟨none, false, 1, .vec 4⟩]
  -- LIGHT_CONSTANT_ATTENUATION, LIGHT_LINEAR_ATTENUATION, LIGHT_QUADRATIC_ATTENUATION, LIGHT_SPOT_CUTOFF, LIGHT_SPOT_EXPONENT: 704
  | 25 | 26 | 27 | 28 | 30 => [⟨none, true, 0, .u8⟩, ⟨none, false, 1, .float⟩]
  -- LIGHT_SPOT_DIRECTION: 713
  | 29 => [⟨none, true, 0, .u8⟩, ⟨none, false, 1, .vec 3⟩]
  -- TEXTURE1D, TEXTURE2D, TEXTURE3D, TEXTURECUBE, TEXTURERECT, TEXTUREDEPTH: 718
  | 31 | 32 | 33 | 34 | 35 | 36 => [⟨none, true, 0, .u8⟩, ⟨none, false, 1, .u32⟩]
  -- LIGHT_ENABLE, TEXTURE1D_ENABLE, TEXTURE2D_ENABLE, TEXTURE3D_ENABLE, TEXTURECUBE_ENABLE, TEXTURERECT_ENABLE, …: 728
  | 20 | 37 | 38 | 39 | 40 | 41 | 42 | 46 => [⟨none, true, 0, .u8⟩, ⟨none, false, 1, .bool⟩]
  -- TEXTURE_ENV_MODE: 740
  | 44 => [⟨none, true, 0, .u8⟩, ⟨none, false, 1, .chars⟩]
  -- BLEND_COLOR, CLEAR_COLOR, FOG_COLOR, LIGHT_MODEL_AMBIENT, MATERIAL_AMBIENT, MATERIAL_DIFFUSE, …: 746
  | 47 | 48 | 58 | 59 | 63 | 64 | 65 | 67 | 76 => [⟨none, false, 0, .vec 4⟩]
  -- POINT_DISTANCE_ATTENUATION: 758
  | 69 => [⟨none, false, 0, .vec 3⟩]
  -- DEPTH_BOUNDS, DEPTH_RANGE, POLYGON_OFFSET: 762
  | 52 | 54 | 74 => [⟨none, false, 0, .vec 2⟩]
  -- CLEAR_STENCIL, STENCIL_MASK: 768
  | 49 | 77 => [⟨none, false, 0, .u32⟩]
  -- CLEAR_DEPTH, FOG_DENSITY, FOG_START, FOG_END, LINE_WIDTH, MATERIAL_SHININESS, …: 773
  | 50 | 55 | 56 | 57 | 62 | 66 | 70 | 71 | 72 | 73 => [⟨none, false, 0, .float⟩]
  -- COLOR_MASK: 786
  | 51 => [⟨none, false, 0, .bools⟩]
  -- LINE_STIPPLE: 794
  | 61 => [⟨none, false, 0, .u16s⟩]
  -- MODEL_VIEW_MATRIX, PROJECTION_MATRIX: 800
  | 68 | 75 => [⟨none, false, 0, .mat⟩]
  -- DEPTH_MASK, LIGHTING_ENABLE, ALPHA_TEST_ENABLE, AUTO_NORMAL_ENABLE, BLEND_ENABLE, COLOR_LOGIC_OP_ENABLE, …: 805
  | 53 | 60 | 78 | 79 | 80 | 81 | 82 | 83 | 84 | 85 | 86 | 87 | 88 | 89 | 90 | 91 | 92 | 93 | 94 | 95 | 96 | 97 | 98 | 99 | 100 | 101 | 102 | 103 | 104 | 105 | 106 | 107 => [⟨none, false, 0, .bool⟩]
  | _ => []

/-- The `switch` of `LoadEffectPassState`, FAXMaterialImport.cpp 873-1134. -/
def loadTable : Nat → List Fld
  -- ALPHA_FUNC: 875
  | 0 => [⟨some "func", false, 0, .enum .function⟩, ⟨some "value", false, 4, .float⟩]
  -- BLEND_FUNC: 880
  | 1 => [⟨some "src", false, 0, .enum .blendType⟩, ⟨some "dest", false, 4, .enum .blendType⟩]
  -- BLEND_FUNC_SEPARATE: 885
  | 2 => [⟨some "src_rgb", false, 0, .enum .blendType⟩, ⟨some "dest_rgb", false, 4, .enum .blendType⟩, ⟨some "src_alpha", false, 8, .enum .blendType⟩, ⟨some "dest_alpha", false, 12, .enum .blendType⟩]
  -- BLEND_EQUATION: 892
  | 3 => [⟨none, false, 0, .enum .blendEquation⟩]
  -- BLEND_EQUATION_SEPARATE: 896
  | 4 => [⟨some "rgb", false, 0, .enum .blendEquation⟩, ⟨some "alpha", false, 4, .enum .blendEquation⟩]
  -- COLOR_MATERIAL: 901
  | 5 => [⟨some "face", false, 0, .enum .faceType⟩, ⟨some "mode", false, 4, .enum .materialType⟩]
  -- CULL_FACE: 906
  | 6 => [⟨none, false, 0, .enum .faceType⟩]
  -- DEPTH_FUNC: 910
  | 7 => [⟨none, false, 0, .enum .function⟩]
  -- FOG_MODE: 914
  | 8 => [⟨none, false, 0, .enum .fogType⟩]
  -- FOG_COORD_SRC: 918
  | 9 => [⟨none, false, 0, .enum .fogCoordinateType⟩]
  -- FRONT_FACE: 922
  | 10 => [⟨none, false, 0, .enum .frontFaceType⟩]
  -- LIGHT_MODEL_COLOR_CONTROL: 926
  | 11 => [⟨none, false, 0, .enum .lightModelColorControlType⟩]
  -- LOGIC_OP: 930
  | 12 => [⟨none, false, 0, .enum .logicOperation⟩]
  -- POLYGON_MODE: 934
  | 13 => [⟨some "face", false, 0, .enum .faceType⟩, ⟨some "mode", false, 4, .enum .polygonMode⟩]
  -- SHADE_MODEL: 939
  | 14 => [⟨none, false, 0, .enum .shadeModel⟩]
  -- STENCIL_FUNC: 943
  | 15 => [⟨some "func", false, 0, .enum .function⟩, ⟨some "ref", false, 4, .u8⟩, ⟨some "mask", false, 5, .u8⟩]
  -- STENCIL_OP: 949
  | 16 => [⟨some "fail", false, 0, .enum .stencilOperation⟩, ⟨some "zfail", false, 4, .enum .stencilOperation⟩, ⟨some "zpass", false, 8, .enum .stencilOperation⟩]
  -- STENCIL_FUNC_SEPARATE: 955
  | 17 => [⟨some "front", false, 0, .enum .function⟩, ⟨some "back", false, 4, .enum .function⟩, ⟨some "ref", false, 8, .u8⟩, ⟨some "mask", false, 9, .u8⟩]
  -- STENCIL_OP_SEPARATE: 962
  | 18 => [⟨some "face", false, 0, .enum .faceType⟩, ⟨some "fail", false, 4, .enum .stencilOperation⟩, ⟨some "zfail", false, 8, .enum .stencilOperation⟩, ⟨some "zpass", false, 12, .enum .stencilOperation⟩]
  -- STENCIL_MASK_SEPARATE: 969
  | 19 => [⟨some "face", false, 0, .enum .faceType⟩, ⟨some "mask", false, 4, .u8⟩]
  -- LIGHT_AMBIENT, LIGHT_DIFFUSE, LIGHT_SPECULAR, LIGHT_POSITION, TEXTURE_ENV_COLOR, CLIP_PLANE: 974
  | 21 | 22 | 23 | 24 | 43 | 45 => [⟨none, true, 0, .u8⟩, ⟨none, false, 1, .vec 4⟩]
  -- LIGHT_CONSTANT_ATTENUATION, LIGHT_LINEAR_ATTENUATION, LIGHT_QUADRATIC_ATTENUATION, LIGHT_SPOT_CUTOFF, LIGHT_SPOT_EXPONENT: 984
  | 25 | 26 | 27 | 28 | 30 => [⟨none, true, 0, .u8⟩, ⟨none, false, 1, .float⟩]
  -- LIGHT_SPOT_DIRECTION: 993
  | 29 => [⟨none, true, 0, .u8⟩, ⟨none, false, 1, .vec 3⟩]
  -- TEXTURE1D, TEXTURE2D, TEXTURE3D, TEXTURECUBE, TEXTURERECT, TEXTUREDEPTH: 998
  | 31 | 32 | 33 | 34 | 35 | 36 => [⟨none, true, 0, .u8⟩, ⟨none, false, 1, .u32⟩]
  -- LIGHT_ENABLE, TEXTURE1D_ENABLE, TEXTURE2D_ENABLE, TEXTURE3D_ENABLE, TEXTURECUBE_ENABLE, TEXTURERECT_ENABLE, …: 1008
  | 20 | 37 | 38 | 39 | 40 | 41 | 42 | 46 => [⟨none, true, 0, .u8⟩, ⟨none, false, 1, .bool⟩]
  -- TEXTURE_ENV_MODE: 1020
  | 44 => [⟨none, true, 0, .u8⟩, ⟨none, false, 1, .chars⟩]
  -- BLEND_COLOR, CLEAR_COLOR, FOG_COLOR, LIGHT_MODEL_AMBIENT, MATERIAL_AMBIENT, MATERIAL_DIFFUSE, …: 1027
  | 47 | 48 | 58 | 59 | 63 | 64 | 65 | 67 | 76 => [⟨none, false, 0, .vec 4⟩]
  -- POINT_DISTANCE_ATTENUATION: 1039
  | 69 => [⟨none, false, 0, .vec 3⟩]
  -- DEPTH_BOUNDS, DEPTH_RANGE, POLYGON_OFFSET: 1043
  | 52 | 54 | 74 => [⟨none, false, 0, .vec 2⟩]
  -- CLEAR_STENCIL, STENCIL_MASK: 1049
  | 49 | 77 => [⟨none, false, 0, .u32⟩]
  -- CLEAR_DEPTH, FOG_DENSITY, FOG_START, FOG_END, LINE_WIDTH, MATERIAL_SHININESS, …: 1054
  | 50 | 55 | 56 | 57 | 62 | 66 | 70 | 71 | 72 | 73 => [⟨none, false, 0, .float⟩]
  -- COLOR_MASK: 1067
  | 51 => [⟨none, false, 0, .bools⟩]
  -- LINE_STIPPLE: 1080
  | 61 => [⟨none, false, 0, .u16s⟩]
  -- MODEL_VIEW_MATRIX, PROJECTION_MATRIX: 1091
  | 68 | 75 => [⟨none, false, 0, .mat⟩]
  -- DEPTH_MASK, LIGHTING_ENABLE, ALPHA_TEST_ENABLE, AUTO_NORMAL_ENABLE, BLEND_ENABLE, COLOR_LOGIC_OP_ENABLE, …: 1096
  | 53 | 60 | 78 | 79 | 80 | 81 | 82 | 83 | 84 | 85 | 86 | 87 | 88 | 89 | 90 | 91 | 92 | 93 | 94 | 95 | 96 | 97 | 98 | 99 | 100 | 101 | 102 | 103 | 104 | 105 | 106 | 107 => [⟨none, false, 0, .bool⟩]
  | _ => []

/-- One use of a macro while saving: an attribute of the element or a child with an attribute. -/
def addFld (fmt : ℚ → Text) (m : List Cell) (n : Node) (f : Fld) : Option Node :=
  (readScals f.kind.scal (m.drop f.off)).map fun vs => match f.child with
    | none => n.put f.attr (fldText fmt f.kind vs)
    | some c => Node.add (.elem (text c) [(f.attr, fldText fmt f.kind vs)] [] []) n

/-- `WriteEffectPassState`, FAXMaterialExport.cpp 571-853. -/
def saveState (fmt : ℚ → Text) (t : Nat) (m : List Cell) : Option Node := (saveTable t).foldlM (addFld fmt m) (leaf (stateText t))

/-- The element that holds the attribute of a field. -/
def fldNode (n : Node) (f : Fld) : Option Node := match f.child with
  | none => some n
  | some c => n.child (text c)

/-- A value stored in the data. The text of TEXTURE_ENV_MODE is copied without its end, and the last byte is set to zero (1023-1024). -/
def storeFld (m : List Cell) (f : Fld) (vs : List SV) : Option (List Cell) :=
  if f.kind = .chars then (putBytes m f.off (scalsBytes f.kind.scal vs)).bind fun m => putBytes m 255 [.byte 0] else putBytes m f.off (scalsBytes f.kind.scal vs)

/-- Whether a field is read without asking for its attribute first. -/
def FKind.always : FKind → Bool
  | .bools | .u16s | .chars => true
  | _ => false

/-- One use of a macro while loading. -/
def loadFld (ov : Ov) (n : Node) (m : List Cell) (f : Fld) : Option (List Cell) := match fldNode n f with
  | none => some m
  | some k => if k.has f.attr || f.kind.always then (prop (some k) f.attr).bind fun v => (fldOf ov f.kind v).bind fun r => match r with
      | none => some m
      | some vs => storeFld m f vs
    else some m

/-- `LoadEffectPassState`, FAXMaterialImport.cpp 850-1143, into the data of a state. -/
def loadState (ov : Ov) (t : Nat) (n : Node) (m : List Cell) : Option (List Cell) := (loadTable t).foldlM (loadFld ov n) m

end Verif.FArc
