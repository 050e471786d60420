/-!
# Model of the COLLADA enumerations (FUtils/FUDaeEnum.h, FUDaeEnum.cpp)

The names are those of the macros in FUtils/FUDaeEnumSyntax.h and FUDaeSyntax.h. A chain of `if (IsEquivalent(value, name)) return v; else ...` is the list of
its pairs of name and value, of which the first match counts. Texts are strings without a 0 character; a NULL argument, undefined in the code, is not
modelled. A `default` of a `switch` is reached by the values that have no case; other integers, which the type does not rule out, are not modelled.
-/

namespace Verif.Enum

/-- The value of the first pair with the given name, or else the last value of the chain. -/
def firstMatch {T : Type} (table : List (String × T)) (otherwise : T) (value : String) : T :=
  match table with
  | [] => otherwise
  | (name, v) :: rest => if value = name then v else firstMatch rest otherwise value

/-- FUDaeEnum.h 29-40: the values of `FUDaeInterpolation`. -/
inductive Interpolation where
  | step
  | linear
  | bezier
  | tcb
  | unknown
deriving DecidableEq, Repr

/-- FUDaeEnum.cpp 30-39: `FUDaeInterpolation::FromString`. -/
def Interpolation.fromString (value : String) : Interpolation :=
  firstMatch [("STEP", .step), ("LINEAR", .linear), ("BEZIER", .bezier), ("TCB", .tcb), ("", .bezier)] .unknown value

/-- FUDaeEnum.cpp 41-52: `FUDaeInterpolation::ToString`. -/
def Interpolation.toString : Interpolation → String
  | .step => "STEP"
  | .linear => "LINEAR"
  | .bezier => "BEZIER"
  | .tcb => "TCB"
  | _ => "unknown"

/-- FUDaeEnum.h 60-68: the values of `FUDaeSplineType`. -/
inductive SplineType where
  | linear
  | bezier
  | nurbs
  | unknown
deriving DecidableEq, Repr

/-- FUDaeEnum.cpp 57-63: `FUDaeSplineType::FromString`. -/
def SplineType.fromString (value : String) : SplineType :=
  firstMatch [("LINEAR", .linear), ("BEZIER", .bezier), ("NURBS", .nurbs)] .unknown value

/-- FUDaeEnum.cpp 65-74: `FUDaeSplineType::ToString`. -/
def SplineType.toString : SplineType → String
  | .linear => "LINEAR"
  | .bezier => "BEZIER"
  | .nurbs => "NURBS"
  | _ => "UNKNOWN"

/-- FUDaeEnum.h 85-93: the values of `FUDaeSplineForm`. -/
inductive SplineForm where
  | opened
  | closed
  | unknown
deriving DecidableEq, Repr

/-- FUDaeEnum.cpp 79-84: `FUDaeSplineForm::FromString`. -/
def SplineForm.fromString (value : String) : SplineForm :=
  firstMatch [("OPEN", .opened), ("CLOSED", .closed)] .unknown value

/-- FUDaeEnum.cpp 86-94: `FUDaeSplineForm::ToString`. -/
def SplineForm.toString : SplineForm → String
  | .opened => "OPEN"
  | .closed => "CLOSED"
  | _ => "UNKNOWN"

/-- FUDaeEnum.h 114-132: the values of `FUDaeTextureChannel`. -/
inductive TextureChannel where
  | ambient
  | bump
  | diffuse
  | displacement
  | emission
  | filter
  | reflection
  | refraction
  | shininess
  | specular
  | specularLevel
  | transparent
  | count
  | unknown
deriving DecidableEq, Repr

/-- FUDaeEnum.cpp 100-116: `FUDaeTextureChannel::FromString`. -/
def TextureChannel.fromString (value : String) : TextureChannel :=
  firstMatch [("AMBIENT", .ambient), ("BUMP", .bump), ("DIFFUSE", .diffuse), ("DISPLACEMENT", .displacement), ("GLOW", .emission),
    ("FILTER", .filter), ("REFLECTION", .reflection), ("REFRACTION", .refraction), ("SHININESS", .shininess), ("SPECULAR", .specular),
    ("SPECULAR-LEVEL", .specularLevel), ("TRANSPARENT", .transparent)] .unknown value

/-- FUDaeEnum.h 143-153: the values of `FUDaeTextureWrapMode`. -/
inductive TextureWrapMode where
  | none
  | wrap
  | mirror
  | clamp
  | border
  | unknown
deriving DecidableEq, Repr

/-- FUDaeEnum.cpp 121-129: `FUDaeTextureWrapMode::FromString`. -/
def TextureWrapMode.fromString (value : String) : TextureWrapMode :=
  firstMatch [("NONE", .none), ("WRAP", .wrap), ("MIRROR", .mirror), ("CLAMP", .clamp), ("BORDER", .border)] .unknown value

/-- FUDaeEnum.cpp 131-142: `FUDaeTextureWrapMode::ToString`. -/
def TextureWrapMode.toString : TextureWrapMode → String
  | .none => "NONE"
  | .wrap => "WRAP"
  | .mirror => "MIRROR"
  | .clamp => "CLAMP"
  | .border => "BORDER"
  | _ => "UNKNOWN"

/-- FUDaeEnum.h 170-182: the values of `FUDaeTextureFilterFunction`. -/
inductive TextureFilterFunction where
  | none
  | nearest
  | linear
  | nearestMipmapNearest
  | linearMipmapNearest
  | nearestMipmapLinear
  | linearMipmapLinear
  | unknown
deriving DecidableEq, Repr

/-- FUDaeEnum.cpp 148-158: `FUDaeTextureFilterFunction::FromString`. -/
def TextureFilterFunction.fromString (value : String) : TextureFilterFunction :=
  firstMatch [("NONE", .none), ("NEAREST", .nearest), ("LINEAR", .linear), ("NEAREST_MIPMAP_NEAREST", .nearestMipmapNearest),
    ("LINEAR_MIPMAP_NEAREST", .linearMipmapNearest), ("NEAREST_MIPMAP_LINEAR", .nearestMipmapLinear),
    ("LINEAR_MIPMAP_LINEAR", .linearMipmapLinear)] .unknown value

/-- FUDaeEnum.cpp 160-172: `FUDaeTextureFilterFunction::ToString`. -/
def TextureFilterFunction.toString : TextureFilterFunction → String
  | .none => "NONE"
  | .nearest => "NEAREST"
  | .nearestMipmapNearest => "NEAREST_MIPMAP_NEAREST"
  | .linearMipmapNearest => "LINEAR_MIPMAP_NEAREST"
  | .nearestMipmapLinear => "NEAREST_MIPMAP_LINEAR"
  | .linearMipmapLinear => "LINEAR_MIPMAP_LINEAR"
  | _ => "UNKNOWN"

/-- FUDaeEnum.h 205-212: the values of `FUDaeMorphMethod`. -/
inductive MorphMethod where
  | normalized
  | relative
  | unknown
deriving DecidableEq, Repr

/-- FUDaeEnum.cpp 177-182: `FUDaeMorphMethod::FromString`. -/
def MorphMethod.fromString (value : String) : MorphMethod :=
  firstMatch [("NORMALIZED", .normalized), ("RELATIVE", .relative)] .normalized value

/-- FUDaeEnum.cpp 184-193: `FUDaeMorphMethod::ToString`. -/
def MorphMethod.toString : MorphMethod → String
  | .normalized => "NORMALIZED"
  | .relative => "RELATIVE"
  | _ => "UNKNOWN"

/-- FUDaeEnum.h 231-249: the values of `FUDaeInfinity`. -/
inductive Infinity where
  | constant
  | linear
  | cycle
  | cycleRelative
  | oscillate
  | unknown
deriving DecidableEq, Repr

/-- FUDaeEnum.cpp 198-206: `FUDaeInfinity::FromString`. -/
def Infinity.fromString (value : String) : Infinity :=
  firstMatch [("CONSTANT", .constant), ("LINEAR", .linear), ("CYCLE", .cycle), ("CYCLE_RELATIVE", .cycleRelative),
    ("OSCILLATE", .oscillate)] .constant value

/-- FUDaeEnum.cpp 208-219: `FUDaeInfinity::ToString`. -/
def Infinity.toString : Infinity → String
  | .constant => "CONSTANT"
  | .linear => "LINEAR"
  | .cycle => "CYCLE"
  | .cycleRelative => "CYCLE_RELATIVE"
  | .oscillate => "OSCILLATE"
  | _ => "CONSTANT"

/-- FUDaeEnum.h 267-285: the values of `FUDaeBlendMode`. -/
inductive BlendMode where
  | none
  | over
  | inside
  | outside
  | add
  | subtract
  | multiply
  | difference
  | lighten
  | darken
  | saturate
  | desaturate
  | illuminate
  | unknown
deriving DecidableEq, Repr

/-- FUDaeEnum.cpp 224-240: `FUDaeBlendMode::FromString`. -/
def BlendMode.fromString (value : String) : BlendMode :=
  firstMatch [("NONE", .none), ("OVER", .over), ("IN", .inside), ("OUT", .outside), ("ADD", .add), ("SUBTRACT", .subtract), ("MULTIPLY", .multiply),
    ("DIFFERENCE", .difference), ("LIGHTEN", .lighten), ("DARKEN", .darken), ("SATURATE", .saturate), ("DESATURATE", .desaturate),
    ("ILLUMINATE", .illuminate)] .unknown value

/-- FUDaeEnum.cpp 242-261: `FUDaeBlendMode::ToString`. -/
def BlendMode.toString : BlendMode → String
  | .none => "NONE"
  | .over => "OVER"
  | .inside => "IN"
  | .outside => "OUT"
  | .add => "ADD"
  | .subtract => "SUBTRACT"
  | .multiply => "MULTIPLY"
  | .difference => "DIFFERENCE"
  | .lighten => "LIGHTEN"
  | .darken => "DARKEN"
  | .saturate => "SATURATE"
  | .desaturate => "DESATURATE"
  | .illuminate => "ILLUMINATE"
  | _ => "NONE"

/-- FUDaeEnum.h 303-322: the values of `FUDaeGeometryInput`. -/
inductive GeometryInput where
  | position
  | vertex
  | normal
  | geotangent
  | geobinormal
  | texcoord
  | textangent
  | texbinormal
  | uv
  | color
  | extra
  | pointSize
  | pointRotation
  | unknown
deriving DecidableEq, Repr

/-- FUDaeEnum.cpp 266-282: `FUDaeGeometryInput::FromString`. -/
def GeometryInput.fromString (value : String) : GeometryInput :=
  firstMatch [("POSITION", .position), ("VERTEX", .vertex), ("NORMAL", .normal), ("TANGENT", .geotangent), ("BINORMAL", .geobinormal),
    ("TEXCOORD", .texcoord), ("TEXTANGENT", .textangent), ("TEXBINORMAL", .texbinormal), ("UV", .uv), ("COLOR", .color), ("POINT_SIZE", .pointSize),
    ("POINT_ROT", .pointRotation), ("EXTRA", .extra)] .unknown value

/-- FUDaeEnum.cpp 284-305: `FUDaeGeometryInput::ToString`. -/
def GeometryInput.toString : GeometryInput → String
  | .position => "POSITION"
  | .vertex => "VERTEX"
  | .normal => "NORMAL"
  | .geotangent => "TANGENT"
  | .geobinormal => "BINORMAL"
  | .texcoord => "TEXCOORD"
  | .textangent => "TEXTANGENT"
  | .texbinormal => "TEXBINORMAL"
  | .uv => "UV"
  | .color => "COLOR"
  | .pointSize => "POINT_SIZE"
  | .pointRotation => "POINT_ROT"
  | .extra => "EXTRA"
  | _ => "UNKNOWN"

/-- FUDaeEnum.h 341-350: the values of `FUDaeProfileType`. -/
inductive ProfileType where
  | cg
  | hlsl
  | glsl
  | gles
  | common
  | unknown
deriving DecidableEq, Repr

/-- FUDaeEnum.cpp 310-318: `FUDaeProfileType::FromString`. -/
def ProfileType.fromString (value : String) : ProfileType :=
  firstMatch [("profile_COMMON", .common), ("profile_CG", .cg), ("profile_HLSL", .hlsl), ("profile_GLSL", .glsl),
    ("profile_GLES", .gles)] .unknown value

/-- FUDaeEnum.cpp 320-333: `FUDaeProfileType::ToString`. -/
def ProfileType.toString : ProfileType → String
  | .common => "profile_COMMON"
  | .cg => "profile_CG"
  | .hlsl => "profile_HLSL"
  | .glsl => "profile_GLSL"
  | .gles => "profile_GLES"
  | _ => "UNKNOWN"

/-- FUDaeEnum.h 374-386: the values of `FUDaePassStateFunction`. -/
inductive PassStateFunction where
  | never
  | less
  | equal
  | lessEqual
  | greater
  | notEqual
  | greaterEqual
  | always
  | invalid
deriving DecidableEq, Repr

/-- FUDaeEnum.cpp 338-349: `FUDaePassStateFunction::FromString`. -/
def PassStateFunction.fromString (value : String) : PassStateFunction :=
  firstMatch [("NEVER", .never), ("LESS", .less), ("EQUAL", .equal), ("LEQUAL", .lessEqual), ("GREATER", .greater), ("NOTEQUAL", .notEqual),
    ("GEQUAL", .greaterEqual), ("ALWAYS", .always)] .invalid value

/-- FUDaeEnum.cpp 351-366: `FUDaePassStateFunction::ToString`. -/
def PassStateFunction.toString : PassStateFunction → String
  | .never => "NEVER"
  | .less => "LESS"
  | .equal => "EQUAL"
  | .lessEqual => "LEQUAL"
  | .greater => "GREATER"
  | .notEqual => "NOTEQUAL"
  | .greaterEqual => "GEQUAL"
  | .always => "ALWAYS"
  | _ => "UNKNOWN"

/-- FUDaeEnum.h 404-417: the values of `FUDaePassStateStencilOperation`. -/
inductive PassStateStencilOperation where
  | keep
  | zero
  | replace
  | increment
  | decrement
  | invert
  | incrementWrap
  | decrementWrap
  | invalid
deriving DecidableEq, Repr

/-- FUDaeEnum.cpp 371-382: `FUDaePassStateStencilOperation::FromString`. -/
def PassStateStencilOperation.fromString (value : String) : PassStateStencilOperation :=
  firstMatch [("KEEP", .keep), ("ZERO", .zero), ("REPLACE", .replace), ("INCR", .increment), ("DECR", .decrement), ("INVERT", .invert),
    ("INCR_WRAP", .incrementWrap), ("DECR_WRAP", .decrementWrap)] .invalid value

/-- FUDaeEnum.cpp 384-399: `FUDaePassStateStencilOperation::ToString`. -/
def PassStateStencilOperation.toString : PassStateStencilOperation → String
  | .keep => "KEEP"
  | .zero => "ZERO"
  | .replace => "REPLACE"
  | .increment => "INCR"
  | .decrement => "DECR"
  | .invert => "INVERT"
  | .incrementWrap => "INCR_WRAP"
  | .decrementWrap => "DECR_WRAP"
  | _ => "UNKNOWN"

/-- FUDaeEnum.h 441-460: the values of `FUDaePassStateBlendType`. -/
inductive PassStateBlendType where
  | zero
  | one
  | sourceColor
  | oneMinusSourceColor
  | destinationColor
  | oneMinusDestinationColor
  | sourceAlpha
  | oneMinusSourceAlpha
  | destinationAlpha
  | oneMinusDestinationAlpha
  | constantColor
  | oneMinusConstantColor
  | constantAlpha
  | oneMinusConstantAlpha
  | sourceAlphaSaturate
  | invalid
deriving DecidableEq, Repr

/-- FUDaeEnum.cpp 404-422: `FUDaePassStateBlendType::FromString`. -/
def PassStateBlendType.fromString (value : String) : PassStateBlendType :=
  firstMatch [("ZERO", .zero), ("ONE", .one), ("SRC_COLOR", .sourceColor), ("ONE_MINUS_SRC_COLOR", .oneMinusSourceColor),
    ("DEST_COLOR", .destinationColor), ("ONE_MINUS_DEST_COLOR", .oneMinusDestinationColor), ("SRC_ALPHA", .sourceAlpha),
    ("ONE_MINUS_SRC_ALPHA", .oneMinusSourceAlpha), ("DEST_ALPHA", .destinationAlpha), ("ONE_MINUS_DEST_ALPHA", .oneMinusDestinationAlpha),
    ("CONSTANT_COLOR", .constantColor), ("ONE_MINUS_CONSTANT_COLOR", .oneMinusConstantColor), ("CONSTANT_ALPHA", .constantAlpha),
    ("ONE_MINUS_CONSTANT_ALPHA", .oneMinusConstantAlpha), ("SRC_ALPHA_SATURATE", .sourceAlphaSaturate)] .invalid value

/-- FUDaeEnum.cpp 424-446: `FUDaePassStateBlendType::ToString`. -/
def PassStateBlendType.toString : PassStateBlendType → String
  | .zero => "ZERO"
  | .one => "ONE"
  | .sourceColor => "SRC_COLOR"
  | .oneMinusSourceColor => "ONE_MINUS_SRC_COLOR"
  | .destinationColor => "DEST_COLOR"
  | .oneMinusDestinationColor => "ONE_MINUS_DEST_COLOR"
  | .sourceAlpha => "SRC_ALPHA"
  | .oneMinusSourceAlpha => "ONE_MINUS_SRC_ALPHA"
  | .destinationAlpha => "DEST_ALPHA"
  | .oneMinusDestinationAlpha => "ONE_MINUS_DEST_ALPHA"
  | .constantColor => "CONSTANT_COLOR"
  | .oneMinusConstantColor => "ONE_MINUS_CONSTANT_COLOR"
  | .constantAlpha => "CONSTANT_ALPHA"
  | .oneMinusConstantAlpha => "ONE_MINUS_CONSTANT_ALPHA"
  | .sourceAlphaSaturate => "SRC_ALPHA_SATURATE"
  | _ => "UNKNOWN"

/-- FUDaeEnum.h 480-487: the values of `FUDaePassStateFaceType`. -/
inductive PassStateFaceType where
  | front
  | back
  | frontAndBack
  | invalid
deriving DecidableEq, Repr

/-- FUDaeEnum.cpp 452-458: `FUDaePassStateFaceType::FromString`. -/
def PassStateFaceType.fromString (value : String) : PassStateFaceType :=
  firstMatch [("FRONT", .front), ("BACK", .back), ("FRONT_AND_BACK", .frontAndBack)] .invalid value

/-- FUDaeEnum.cpp 460-470: `FUDaePassStateFaceType::ToString`. -/
def PassStateFaceType.toString : PassStateFaceType → String
  | .front => "FRONT"
  | .back => "BACK"
  | .frontAndBack => "FRONT_AND_BACK"
  | _ => "UNKNOWN"

/-- FUDaeEnum.h 505-514: the values of `FUDaePassStateBlendEquation`. -/
inductive PassStateBlendEquation where
  | add
  | subtract
  | reverseSubtract
  | min
  | max
  | invalid
deriving DecidableEq, Repr

/-- FUDaeEnum.cpp 475-483: `FUDaePassStateBlendEquation::FromString`. -/
def PassStateBlendEquation.fromString (value : String) : PassStateBlendEquation :=
  firstMatch [("FUNC_ADD", .add), ("FUNC_SUBTRACT", .subtract), ("FUNC_REVERSE_SUBTRACT", .reverseSubtract), ("MIN", .min),
    ("MAX", .max)] .invalid value

/-- FUDaeEnum.cpp 485-497: `FUDaePassStateBlendEquation::ToString`. -/
def PassStateBlendEquation.toString : PassStateBlendEquation → String
  | .add => "FUNC_ADD"
  | .subtract => "FUNC_SUBTRACT"
  | .reverseSubtract => "FUNC_REVERSE_SUBTRACT"
  | .min => "MIN"
  | .max => "MAX"
  | _ => "UNKNOWN"

/-- FUDaeEnum.h 532-541: the values of `FUDaePassStateMaterialType`. -/
inductive PassStateMaterialType where
  | emission
  | ambient
  | diffuse
  | specular
  | ambientAndDiffuse
  | invalid
deriving DecidableEq, Repr

/-- FUDaeEnum.cpp 502-510: `FUDaePassStateMaterialType::FromString`. -/
def PassStateMaterialType.fromString (value : String) : PassStateMaterialType :=
  firstMatch [("EMISSION", .emission), ("AMBIENT", .ambient), ("DIFFUSE", .diffuse), ("SPECULAR", .specular),
    ("AMBIENT_AND_DIFFUSE", .ambientAndDiffuse)] .invalid value

/-- FUDaeEnum.cpp 512-524: `FUDaePassStateMaterialType::ToString`. -/
def PassStateMaterialType.toString : PassStateMaterialType → String
  | .emission => "EMISSION"
  | .ambient => "AMBIENT"
  | .diffuse => "DIFFUSE"
  | .specular => "SPECULAR"
  | .ambientAndDiffuse => "AMBIENT_AND_DIFFUSE"
  | _ => "UNKNOWN"

/-- FUDaeEnum.h 559-566: the values of `FUDaePassStateFogType`. -/
inductive PassStateFogType where
  | linear
  | exp
  | exp2
  | invalid
deriving DecidableEq, Repr

/-- FUDaeEnum.cpp 529-535: `FUDaePassStateFogType::FromString`. -/
def PassStateFogType.fromString (value : String) : PassStateFogType :=
  firstMatch [("LINEAR", .linear), ("EXP", .exp), ("EXP2", .exp2)] .invalid value

/-- FUDaeEnum.cpp 537-547: `FUDaePassStateFogType::ToString`. -/
def PassStateFogType.toString : PassStateFogType → String
  | .linear => "LINEAR"
  | .exp => "EXP"
  | .exp2 => "EXP2"
  | _ => "UNKNOWN"

/-- FUDaeEnum.h 584-590: the values of `FUDaePassStateFogCoordinateType`. -/
inductive PassStateFogCoordinateType where
  | fogCoordinate
  | fragmentDepth
  | invalid
deriving DecidableEq, Repr

/-- FUDaeEnum.cpp 552-557: `FUDaePassStateFogCoordinateType::FromString`. -/
def PassStateFogCoordinateType.fromString (value : String) : PassStateFogCoordinateType :=
  firstMatch [("FOG_COORDINATE", .fogCoordinate), ("FRAGMENT_DEPTH", .fragmentDepth)] .invalid value

/-- FUDaeEnum.cpp 559-568: `FUDaePassStateFogCoordinateType::ToString`. -/
def PassStateFogCoordinateType.toString : PassStateFogCoordinateType → String
  | .fogCoordinate => "FOG_COORDINATE"
  | .fragmentDepth => "FRAGMENT_DEPTH"
  | _ => "UNKNOWN"

/-- FUDaeEnum.h 608-614: the values of `FUDaePassStateFrontFaceType`. -/
inductive PassStateFrontFaceType where
  | clockwise
  | counterClockwise
  | invalid
deriving DecidableEq, Repr

/-- FUDaeEnum.cpp 573-578: `FUDaePassStateFrontFaceType::FromString`. -/
def PassStateFrontFaceType.fromString (value : String) : PassStateFrontFaceType :=
  firstMatch [("CW", .clockwise), ("CCW", .counterClockwise)] .invalid value

/-- FUDaeEnum.cpp 580-589: `FUDaePassStateFrontFaceType::ToString`. -/
def PassStateFrontFaceType.toString : PassStateFrontFaceType → String
  | .clockwise => "CW"
  | .counterClockwise => "CCW"
  | _ => "UNKNOWN"

/-- FUDaeEnum.h 633-652: the values of `FUDaePassStateLogicOperation`. -/
inductive PassStateLogicOperation where
  | clear
  | andOp
  | andReverse
  | copy
  | andInverted
  | noop
  | xorOp
  | orOp
  | norOp
  | equiv
  | invert
  | orReverse
  | copyInverted
  | nandOp
  | setBits
  | invalid
deriving DecidableEq, Repr

/-- FUDaeEnum.cpp 596-614: `FUDaePassStateLogicOperation::FromString`. -/
def PassStateLogicOperation.fromString (value : String) : PassStateLogicOperation :=
  firstMatch [("CLEAR", .clear), ("AND", .andOp), ("AND_REVERSE", .andReverse), ("COPY", .copy), ("AND_INVERTED", .andInverted), ("NOOP", .noop),
    ("XOR", .xorOp), ("OR", .orOp), ("NOR", .norOp), ("EQUIV", .equiv), ("INVERT", .invert), ("OR_REVERSE", .orReverse),
    ("COPY_INVERTED", .copyInverted), ("NAND", .nandOp), ("SET", .setBits)] .invalid value

/-- FUDaeEnum.cpp 616-638: `FUDaePassStateLogicOperation::ToString`. -/
def PassStateLogicOperation.toString : PassStateLogicOperation → String
  | .clear => "CLEAR"
  | .andOp => "AND"
  | .andReverse => "AND_REVERSE"
  | .copy => "COPY"
  | .andInverted => "AND_INVERTED"
  | .noop => "NOOP"
  | .xorOp => "XOR"
  | .orOp => "OR"
  | .norOp => "NOR"
  | .equiv => "EQUIV"
  | .invert => "INVERT"
  | .orReverse => "OR_REVERSE"
  | .copyInverted => "COPY_INVERTED"
  | .nandOp => "NAND"
  | .setBits => "SET"
  | _ => "UNKNOWN"

/-- FUDaeEnum.h 670-677: the values of `FUDaePassStatePolygonMode`. -/
inductive PassStatePolygonMode where
  | point
  | line
  | fill
  | invalid
deriving DecidableEq, Repr

/-- FUDaeEnum.cpp 644-650: `FUDaePassStatePolygonMode::FromString`. -/
def PassStatePolygonMode.fromString (value : String) : PassStatePolygonMode :=
  firstMatch [("POINT", .point), ("LINE", .line), ("FILL", .fill)] .invalid value

/-- FUDaeEnum.cpp 652-662: `FUDaePassStatePolygonMode::ToString`. -/
def PassStatePolygonMode.toString : PassStatePolygonMode → String
  | .point => "POINT"
  | .line => "LINE"
  | .fill => "FILL"
  | _ => "UNKNOWN"

/-- FUDaeEnum.h 695-701: the values of `FUDaePassStateShadeModel`. -/
inductive PassStateShadeModel where
  | flat
  | smooth
  | invalid
deriving DecidableEq, Repr

/-- FUDaeEnum.cpp 668-673: `FUDaePassStateShadeModel::FromString`. -/
def PassStateShadeModel.fromString (value : String) : PassStateShadeModel :=
  firstMatch [("FLAT", .flat), ("SMOOTH", .smooth)] .invalid value

/-- FUDaeEnum.cpp 675-684: `FUDaePassStateShadeModel::ToString`. -/
def PassStateShadeModel.toString : PassStateShadeModel → String
  | .flat => "FLAT"
  | .smooth => "SMOOTH"
  | _ => "UNKNOWN"

/-- FUDaeEnum.h 719-725: the values of `FUDaePassStateLightModelColorControlType`. -/
inductive PassStateLightModelColorControlType where
  | singleColor
  | separateSpecularColor
  | invalid
deriving DecidableEq, Repr

/-- FUDaeEnum.cpp 689-694: `FUDaePassStateLightModelColorControlType::FromString`. -/
def PassStateLightModelColorControlType.fromString (value : String) : PassStateLightModelColorControlType :=
  firstMatch [("SINGLE_COLOR", .singleColor), ("SEPARATE_SPECULAR_COLOR", .separateSpecularColor)] .invalid value

/-- FUDaeEnum.cpp 696-705: `FUDaePassStateLightModelColorControlType::ToString`. -/
def PassStateLightModelColorControlType.toString : PassStateLightModelColorControlType → String
  | .singleColor => "SINGLE_COLOR"
  | .separateSpecularColor => "SEPARATE_SPECULAR_COLOR"
  | _ => "UNKNOWN"

/-- FUDaeEnum.h 749-872: the values of `FUDaePassState`. -/
inductive PassState where
  | alphaFunc
  | blendFunc
  | blendFuncSeparate
  | blendEquation
  | blendEquationSeparate
  | colorMaterial
  | cullFace
  | depthFunc
  | fogMode
  | fogCoordSrc
  | frontFace
  | lightModelColorControl
  | logicOp
  | polygonMode
  | shadeModel
  | stencilFunc
  | stencilOp
  | stencilFuncSeparate
  | stencilOpSeparate
  | stencilMaskSeparate
  | lightEnable
  | lightAmbient
  | lightDiffuse
  | lightSpecular
  | lightPosition
  | lightConstantAttenuation
  | lightLinearAttenuation
  | lightQuadraticAttenuation
  | lightSpotCutoff
  | lightSpotDirection
  | lightSpotExponent
  | texture1d
  | texture2d
  | texture3d
  | texturecube
  | texturerect
  | texturedepth
  | texture1dEnable
  | texture2dEnable
  | texture3dEnable
  | texturecubeEnable
  | texturerectEnable
  | texturedepthEnable
  | textureEnvColor
  | textureEnvMode
  | clipPlane
  | clipPlaneEnable
  | blendColor
  | clearColor
  | clearStencil
  | clearDepth
  | colorMask
  | depthBounds
  | depthMask
  | depthRange
  | fogDensity
  | fogStart
  | fogEnd
  | fogColor
  | lightModelAmbient
  | lightingEnable
  | lineStipple
  | lineWidth
  | materialAmbient
  | materialDiffuse
  | materialEmission
  | materialShininess
  | materialSpecular
  | modelViewMatrix
  | pointDistanceAttenuation
  | pointFadeThresholdSize
  | pointSize
  | pointSizeMin
  | pointSizeMax
  | polygonOffset
  | projectionMatrix
  | scissor
  | stencilMask
  | alphaTestEnable
  | autoNormalEnable
  | blendEnable
  | colorLogicOpEnable
  | colorMaterialEnable
  | cullFaceEnable
  | depthBoundsEnable
  | depthClampEnable
  | depthTestEnable
  | ditherEnable
  | fogEnable
  | lightModelLocalViewerEnable
  | lightModelTwoSideEnable
  | lineSmoothEnable
  | lineStippleEnable
  | logicOpEnable
  | multisampleEnable
  | normalizeEnable
  | pointSmoothEnable
  | polygonOffsetFillEnable
  | polygonOffsetLineEnable
  | polygonOffsetPointEnable
  | polygonSmoothEnable
  | polygonStippleEnable
  | rescaleNormalEnable
  | sampleAlphaToCoverageEnable
  | sampleAlphaToOneEnable
  | sampleCoverageEnable
  | scissorTestEnable
  | stencilTestEnable
  | count
  | invalid
deriving DecidableEq, Repr

/-- FUDaeEnum.cpp 710-821: `FUDaePassState::FromString`. -/
def PassState.fromString (value : String) : PassState :=
  firstMatch [("alpha_func", .alphaFunc), ("blend_func", .blendFunc), ("blend_func_separate", .blendFuncSeparate),
    ("blend_equation", .blendEquation), ("blend_equation_separate", .blendEquationSeparate), ("color_material", .colorMaterial),
    ("cull_face", .cullFace), ("depth_func", .depthFunc), ("fog_mode", .fogMode), ("fog_coord_src", .fogCoordSrc), ("front_face", .frontFace),
    ("light_model_color_control", .lightModelColorControl), ("logic_op", .logicOp), ("polygon_mode", .polygonMode), ("shade_model", .shadeModel),
    ("stencil_func", .stencilFunc), ("stencil_op", .stencilOp), ("stencil_func_separate", .stencilFuncSeparate),
    ("stencil_op_separate", .stencilOpSeparate), ("stencil_mask_separate", .stencilMaskSeparate), ("light_enable", .lightEnable),
    ("light_ambient", .lightAmbient), ("light_diffuse", .lightDiffuse), ("light_specular", .lightSpecular), ("light_position", .lightPosition),
    ("light_constant_attenuation", .lightConstantAttenuation), ("light_linear_attenuation", .lightLinearAttenuation),
    ("light_quadratic_attenuation", .lightQuadraticAttenuation), ("light_spot_cutoff", .lightSpotCutoff),
    ("light_spot_direction", .lightSpotDirection), ("light_spot_exponent", .lightSpotExponent), ("texture1D", .texture1d), ("texture2D", .texture2d),
    ("texture3D", .texture3d), ("textureCUBE", .texturecube), ("textureRECT", .texturerect), ("textureDEPTH", .texturedepth),
    ("texture1D_enable", .texture1dEnable), ("texture2D_enable", .texture2dEnable), ("texture3D_enable", .texture3dEnable),
    ("textureCUBE_enable", .texturecubeEnable), ("textureRECT_enable", .texturerectEnable), ("textureDEPTH_enable", .texturedepthEnable),
    ("texture_env_color", .textureEnvColor), ("texture_env_mode", .textureEnvMode), ("clip_plane", .clipPlane),
    ("clip_plane_enable", .clipPlaneEnable), ("blend_color", .blendColor), ("clear_color", .clearColor), ("clear_stencil", .clearStencil),
    ("clear_depth", .clearDepth), ("color_mask", .colorMask), ("depth_bounds", .depthBounds), ("depth_mask", .depthMask),
    ("depth_range", .depthRange), ("fog_density", .fogDensity), ("fog_start", .fogStart), ("fog_end", .fogEnd), ("fog_color", .fogColor),
    ("light_model_ambient", .lightModelAmbient), ("lighting_enable", .lightingEnable), ("line_stipple", .lineStipple), ("line_width", .lineWidth),
    ("material_ambient", .materialAmbient), ("material_diffuse", .materialDiffuse), ("material_emission", .materialEmission),
    ("material_shininess", .materialShininess), ("material_specular", .materialSpecular), ("model_view_matrix", .modelViewMatrix),
    ("point_distance_attenuation", .pointDistanceAttenuation), ("point_fade_threshold_size", .pointFadeThresholdSize), ("point_size", .pointSize),
    ("point_size_min", .pointSizeMin), ("point_size_max", .pointSizeMax), ("polygon_offset", .polygonOffset),
    ("projection_matrix", .projectionMatrix), ("scissor", .scissor), ("stencil_mask", .stencilMask), ("alpha_test_enable", .alphaTestEnable),
    ("auto_normal_enable", .autoNormalEnable), ("blend_enable", .blendEnable), ("color_logic_op_enable", .colorLogicOpEnable),
    ("color_material_enable", .colorMaterialEnable), ("cull_face_enable", .cullFaceEnable), ("depth_bounds_enable", .depthBoundsEnable),
    ("depth_clamp_enable", .depthClampEnable), ("depth_test_enable", .depthTestEnable), ("dither_enable", .ditherEnable), ("fog_enable", .fogEnable),
    ("light_model_local_viewer_enable", .lightModelLocalViewerEnable), ("light_model_two_side_enable", .lightModelTwoSideEnable),
    ("line_smooth_enable", .lineSmoothEnable), ("line_stipple_enable", .lineStippleEnable), ("logic_op_enable", .logicOpEnable),
    ("multisample_enable", .multisampleEnable), ("normalize_enable", .normalizeEnable), ("point_smooth_enable", .pointSmoothEnable),
    ("polygon_offset_fill_enable", .polygonOffsetFillEnable), ("polygon_offset_line_enable", .polygonOffsetLineEnable),
    ("polygon_offset_point_enable", .polygonOffsetPointEnable), ("polygon_smooth_enable", .polygonSmoothEnable),
    ("polygon_stipple_enable", .polygonStippleEnable), ("rescale_normal_enable", .rescaleNormalEnable),
    ("sample_alpha_to_coverage_enable", .sampleAlphaToCoverageEnable), ("sample_alpha_to_one_enable", .sampleAlphaToOneEnable),
    ("sample_coverage_enable", .sampleCoverageEnable), ("scissor_test_enable", .scissorTestEnable),
    ("stencil_test_enable", .stencilTestEnable)] .invalid value

/-- FUDaeEnum.cpp 823-938: `FUDaePassState::ToString`. -/
def PassState.toString : PassState → String
  | .alphaFunc => "alpha_func"
  | .blendFunc => "blend_func"
  | .blendFuncSeparate => "blend_func_separate"
  | .blendEquation => "blend_equation"
  | .blendEquationSeparate => "blend_equation_separate"
  | .colorMaterial => "color_material"
  | .cullFace => "cull_face"
  | .depthFunc => "depth_func"
  | .fogMode => "fog_mode"
  | .fogCoordSrc => "fog_coord_src"
  | .frontFace => "front_face"
  | .lightModelColorControl => "light_model_color_control"
  | .logicOp => "logic_op"
  | .polygonMode => "polygon_mode"
  | .shadeModel => "shade_model"
  | .stencilFunc => "stencil_func"
  | .stencilOp => "stencil_op"
  | .stencilFuncSeparate => "stencil_func_separate"
  | .stencilOpSeparate => "stencil_op_separate"
  | .stencilMaskSeparate => "stencil_mask_separate"
  | .lightEnable => "light_enable"
  | .lightAmbient => "light_ambient"
  | .lightDiffuse => "light_diffuse"
  | .lightSpecular => "light_specular"
  | .lightPosition => "light_position"
  | .lightConstantAttenuation => "light_constant_attenuation"
  | .lightLinearAttenuation => "light_linear_attenuation"
  | .lightQuadraticAttenuation => "light_quadratic_attenuation"
  | .lightSpotCutoff => "light_spot_cutoff"
  | .lightSpotDirection => "light_spot_direction"
  | .lightSpotExponent => "light_spot_exponent"
  | .texture1d => "texture1D"
  | .texture2d => "texture2D"
  | .texture3d => "texture3D"
  | .texturecube => "textureCUBE"
  | .texturerect => "textureRECT"
  | .texturedepth => "textureDEPTH"
  | .texture1dEnable => "texture1D_enable"
  | .texture2dEnable => "texture2D_enable"
  | .texture3dEnable => "texture3D_enable"
  | .texturecubeEnable => "textureCUBE_enable"
  | .texturerectEnable => "textureRECT_enable"
  | .texturedepthEnable => "textureDEPTH_enable"
  | .textureEnvColor => "texture_env_color"
  | .textureEnvMode => "texture_env_mode"
  | .clipPlane => "clip_plane"
  | .clipPlaneEnable => "clip_plane_enable"
  | .blendColor => "blend_color"
  | .clearColor => "clear_color"
  | .clearStencil => "clear_stencil"
  | .clearDepth => "clear_depth"
  | .colorMask => "color_mask"
  | .depthBounds => "depth_bounds"
  | .depthMask => "depth_mask"
  | .depthRange => "depth_range"
  | .fogDensity => "fog_density"
  | .fogStart => "fog_start"
  | .fogEnd => "fog_end"
  | .fogColor => "fog_color"
  | .lightModelAmbient => "light_model_ambient"
  | .lightingEnable => "lighting_enable"
  | .lineStipple => "line_stipple"
  | .lineWidth => "line_width"
  | .materialAmbient => "material_ambient"
  | .materialDiffuse => "material_diffuse"
  | .materialEmission => "material_emission"
  | .materialShininess => "material_shininess"
  | .materialSpecular => "material_specular"
  | .modelViewMatrix => "model_view_matrix"
  | .pointDistanceAttenuation => "point_distance_attenuation"
  | .pointFadeThresholdSize => "point_fade_threshold_size"
  | .pointSize => "point_size"
  | .pointSizeMin => "point_size_min"
  | .pointSizeMax => "point_size_max"
  | .polygonOffset => "polygon_offset"
  | .projectionMatrix => "projection_matrix"
  | .scissor => "scissor"
  | .stencilMask => "stencil_mask"
  | .alphaTestEnable => "alpha_test_enable"
  | .autoNormalEnable => "auto_normal_enable"
  | .blendEnable => "blend_enable"
  | .colorLogicOpEnable => "color_logic_op_enable"
  | .colorMaterialEnable => "color_material_enable"
  | .cullFaceEnable => "cull_face_enable"
  | .depthBoundsEnable => "depth_bounds_enable"
  | .depthClampEnable => "depth_clamp_enable"
  | .depthTestEnable => "depth_test_enable"
  | .ditherEnable => "dither_enable"
  | .fogEnable => "fog_enable"
  | .lightModelLocalViewerEnable => "light_model_local_viewer_enable"
  | .lightModelTwoSideEnable => "light_model_two_side_enable"
  | .lineSmoothEnable => "line_smooth_enable"
  | .lineStippleEnable => "line_stipple_enable"
  | .logicOpEnable => "logic_op_enable"
  | .multisampleEnable => "multisample_enable"
  | .normalizeEnable => "normalize_enable"
  | .pointSmoothEnable => "point_smooth_enable"
  | .polygonOffsetFillEnable => "polygon_offset_fill_enable"
  | .polygonOffsetLineEnable => "polygon_offset_line_enable"
  | .polygonOffsetPointEnable => "polygon_offset_point_enable"
  | .polygonSmoothEnable => "polygon_smooth_enable"
  | .polygonStippleEnable => "polygon_stipple_enable"
  | .rescaleNormalEnable => "rescale_normal_enable"
  | .sampleAlphaToCoverageEnable => "sample_alpha_to_coverage_enable"
  | .sampleAlphaToOneEnable => "sample_alpha_to_one_enable"
  | .sampleCoverageEnable => "sample_coverage_enable"
  | .scissorTestEnable => "scissor_test_enable"
  | .stencilTestEnable => "stencil_test_enable"
  | _ => "unknown"

end Verif.Enum
