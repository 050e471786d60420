import Verif.EnumLemmas

/-!
# C44: the names of the COLLADA enumerations

For every enumeration that is both written and read, reading the name of a value gives the value, no two values share a name, and every other text is read as
the fallback value. The texture filter `LINEAR` is the one value for which this fails.
-/

namespace Verif.Enum

/-- `FUDaeSplineType`. -/
theorem splineType_names : Names SplineType.toString SplineType.fromString (· ≠ .unknown) .unknown :=
  .of_table _ (fun _ => rfl) (fun v => by cases v <;> decide +kernel) (by decide +kernel)

example : SplineType.toString .bezier = "BEZIER" ∧ SplineType.fromString "BEZIER" = .bezier ∧ SplineType.fromString "BEZIER?" = .unknown := by decide +kernel

/-- `FUDaeSplineForm`. -/
theorem splineForm_names : Names SplineForm.toString SplineForm.fromString (· ≠ .unknown) .unknown :=
  .of_table _ (fun _ => rfl) (fun v => by cases v <;> decide +kernel) (by decide +kernel)

example : SplineForm.toString .closed = "CLOSED" ∧ SplineForm.fromString "CLOSED" = .closed ∧ SplineForm.fromString "CLOSED?" = .unknown := by decide +kernel

/-- `FUDaeTextureWrapMode`. -/
theorem textureWrapMode_names : Names TextureWrapMode.toString TextureWrapMode.fromString (· ≠ .unknown) .unknown :=
  .of_table _ (fun _ => rfl) (fun v => by cases v <;> decide +kernel) (by decide +kernel)

example : TextureWrapMode.toString .mirror = "MIRROR" ∧ TextureWrapMode.fromString "MIRROR" = .mirror ∧ TextureWrapMode.fromString "MIRROR?" = .unknown := by decide +kernel

/-- `FUDaeMorphMethod`; other texts are read as the normalized method. -/
theorem morphMethod_names : Names MorphMethod.toString MorphMethod.fromString (· ≠ .unknown) .normalized :=
  .of_table _ (fun _ => rfl) (fun v => by cases v <;> decide +kernel) (by decide +kernel)

example : MorphMethod.toString .relative = "RELATIVE" ∧ MorphMethod.fromString "RELATIVE" = .relative ∧ MorphMethod.fromString "RELATIVE?" = .normalized := by decide +kernel

/-- `FUDaeInfinity`; other texts are read as a constant infinity. -/
theorem infinity_names : Names Infinity.toString Infinity.fromString (· ≠ .unknown) .constant :=
  .of_table _ (fun _ => rfl) (fun v => by cases v <;> decide +kernel) (by decide +kernel)

example : Infinity.toString .cycle = "CYCLE" ∧ Infinity.fromString "CYCLE" = .cycle ∧ Infinity.fromString "CYCLE?" = .constant := by decide +kernel

/-- `FUDaeBlendMode`. -/
theorem blendMode_names : Names BlendMode.toString BlendMode.fromString (· ≠ .unknown) .unknown :=
  .of_table _ (fun _ => rfl) (fun v => by cases v <;> decide +kernel) (by decide +kernel)

example : BlendMode.toString .multiply = "MULTIPLY" ∧ BlendMode.fromString "MULTIPLY" = .multiply ∧ BlendMode.fromString "MULTIPLY?" = .unknown := by decide +kernel

/-- `FUDaeGeometryInput`. -/
theorem geometryInput_names : Names GeometryInput.toString GeometryInput.fromString (· ≠ .unknown) .unknown :=
  .of_table _ (fun _ => rfl) (fun v => by cases v <;> decide +kernel) (by decide +kernel)

example : GeometryInput.toString .textangent = "TEXTANGENT" ∧ GeometryInput.fromString "TEXTANGENT" = .textangent ∧ GeometryInput.fromString "TEXTANGENT?" = .unknown := by decide +kernel

/-- `FUDaeProfileType`. -/
theorem profileType_names : Names ProfileType.toString ProfileType.fromString (· ≠ .unknown) .unknown :=
  .of_table _ (fun _ => rfl) (fun v => by cases v <;> decide +kernel) (by decide +kernel)

example : ProfileType.toString .hlsl = "profile_HLSL" ∧ ProfileType.fromString "profile_HLSL" = .hlsl ∧ ProfileType.fromString "profile_HLSL?" = .unknown := by decide +kernel

/-- `FUDaePassStateFunction`. -/
theorem passStateFunction_names : Names PassStateFunction.toString PassStateFunction.fromString (· ≠ .invalid) .invalid :=
  .of_table _ (fun _ => rfl) (fun v => by cases v <;> decide +kernel) (by decide +kernel)

example : PassStateFunction.toString .greater = "GREATER" ∧ PassStateFunction.fromString "GREATER" = .greater ∧ PassStateFunction.fromString "GREATER?" = .invalid := by decide +kernel

/-- `FUDaePassStateStencilOperation`. -/
theorem passStateStencilOperation_names : Names PassStateStencilOperation.toString PassStateStencilOperation.fromString (· ≠ .invalid) .invalid :=
  .of_table _ (fun _ => rfl) (fun v => by cases v <;> decide +kernel) (by decide +kernel)

example : PassStateStencilOperation.toString .decrement = "DECR" ∧ PassStateStencilOperation.fromString "DECR" = .decrement ∧ PassStateStencilOperation.fromString "DECR?" = .invalid := by decide +kernel

/-- `FUDaePassStateBlendType`. -/
theorem passStateBlendType_names : Names PassStateBlendType.toString PassStateBlendType.fromString (· ≠ .invalid) .invalid :=
  .of_table _ (fun _ => rfl) (fun v => by cases v <;> decide +kernel) (by decide +kernel)

example : PassStateBlendType.toString .oneMinusSourceAlpha = "ONE_MINUS_SRC_ALPHA" ∧ PassStateBlendType.fromString "ONE_MINUS_SRC_ALPHA" = .oneMinusSourceAlpha ∧ PassStateBlendType.fromString "ONE_MINUS_SRC_ALPHA?" = .invalid := by decide +kernel

/-- `FUDaePassStateFaceType`. -/
theorem passStateFaceType_names : Names PassStateFaceType.toString PassStateFaceType.fromString (· ≠ .invalid) .invalid :=
  .of_table _ (fun _ => rfl) (fun v => by cases v <;> decide +kernel) (by decide +kernel)

example : PassStateFaceType.toString .back = "BACK" ∧ PassStateFaceType.fromString "BACK" = .back ∧ PassStateFaceType.fromString "BACK?" = .invalid := by decide +kernel

/-- `FUDaePassStateBlendEquation`. -/
theorem passStateBlendEquation_names : Names PassStateBlendEquation.toString PassStateBlendEquation.fromString (· ≠ .invalid) .invalid :=
  .of_table _ (fun _ => rfl) (fun v => by cases v <;> decide +kernel) (by decide +kernel)

example : PassStateBlendEquation.toString .reverseSubtract = "FUNC_REVERSE_SUBTRACT" ∧ PassStateBlendEquation.fromString "FUNC_REVERSE_SUBTRACT" = .reverseSubtract ∧ PassStateBlendEquation.fromString "FUNC_REVERSE_SUBTRACT?" = .invalid := by decide +kernel

/-- `FUDaePassStateMaterialType`. -/
theorem passStateMaterialType_names : Names PassStateMaterialType.toString PassStateMaterialType.fromString (· ≠ .invalid) .invalid :=
  .of_table _ (fun _ => rfl) (fun v => by cases v <;> decide +kernel) (by decide +kernel)

example : PassStateMaterialType.toString .diffuse = "DIFFUSE" ∧ PassStateMaterialType.fromString "DIFFUSE" = .diffuse ∧ PassStateMaterialType.fromString "DIFFUSE?" = .invalid := by decide +kernel

/-- `FUDaePassStateFogType`. -/
theorem passStateFogType_names : Names PassStateFogType.toString PassStateFogType.fromString (· ≠ .invalid) .invalid :=
  .of_table _ (fun _ => rfl) (fun v => by cases v <;> decide +kernel) (by decide +kernel)

example : PassStateFogType.toString .exp = "EXP" ∧ PassStateFogType.fromString "EXP" = .exp ∧ PassStateFogType.fromString "EXP?" = .invalid := by decide +kernel

/-- `FUDaePassStateFogCoordinateType`. -/
theorem passStateFogCoordinateType_names : Names PassStateFogCoordinateType.toString PassStateFogCoordinateType.fromString (· ≠ .invalid) .invalid :=
  .of_table _ (fun _ => rfl) (fun v => by cases v <;> decide +kernel) (by decide +kernel)

example : PassStateFogCoordinateType.toString .fragmentDepth = "FRAGMENT_DEPTH" ∧ PassStateFogCoordinateType.fromString "FRAGMENT_DEPTH" = .fragmentDepth ∧ PassStateFogCoordinateType.fromString "FRAGMENT_DEPTH?" = .invalid := by decide +kernel

/-- `FUDaePassStateFrontFaceType`. -/
theorem passStateFrontFaceType_names : Names PassStateFrontFaceType.toString PassStateFrontFaceType.fromString (· ≠ .invalid) .invalid :=
  .of_table _ (fun _ => rfl) (fun v => by cases v <;> decide +kernel) (by decide +kernel)

example : PassStateFrontFaceType.toString .counterClockwise = "CCW" ∧ PassStateFrontFaceType.fromString "CCW" = .counterClockwise ∧ PassStateFrontFaceType.fromString "CCW?" = .invalid := by decide +kernel

/-- `FUDaePassStateLogicOperation`. -/
theorem passStateLogicOperation_names : Names PassStateLogicOperation.toString PassStateLogicOperation.fromString (· ≠ .invalid) .invalid :=
  .of_table _ (fun _ => rfl) (fun v => by cases v <;> decide +kernel) (by decide +kernel)

example : PassStateLogicOperation.toString .orOp = "OR" ∧ PassStateLogicOperation.fromString "OR" = .orOp ∧ PassStateLogicOperation.fromString "OR?" = .invalid := by decide +kernel

/-- `FUDaePassStatePolygonMode`. -/
theorem passStatePolygonMode_names : Names PassStatePolygonMode.toString PassStatePolygonMode.fromString (· ≠ .invalid) .invalid :=
  .of_table _ (fun _ => rfl) (fun v => by cases v <;> decide +kernel) (by decide +kernel)

example : PassStatePolygonMode.toString .line = "LINE" ∧ PassStatePolygonMode.fromString "LINE" = .line ∧ PassStatePolygonMode.fromString "LINE?" = .invalid := by decide +kernel

/-- `FUDaePassStateShadeModel`. -/
theorem passStateShadeModel_names : Names PassStateShadeModel.toString PassStateShadeModel.fromString (· ≠ .invalid) .invalid :=
  .of_table _ (fun _ => rfl) (fun v => by cases v <;> decide +kernel) (by decide +kernel)

example : PassStateShadeModel.toString .smooth = "SMOOTH" ∧ PassStateShadeModel.fromString "SMOOTH" = .smooth ∧ PassStateShadeModel.fromString "SMOOTH?" = .invalid := by decide +kernel

/-- `FUDaePassStateLightModelColorControlType`. -/
theorem passStateLightModelColorControlType_names : Names PassStateLightModelColorControlType.toString PassStateLightModelColorControlType.fromString (· ≠ .invalid) .invalid :=
  .of_table _ (fun _ => rfl) (fun v => by cases v <;> decide +kernel) (by decide +kernel)

example : PassStateLightModelColorControlType.toString .separateSpecularColor = "SEPARATE_SPECULAR_COLOR" ∧ PassStateLightModelColorControlType.fromString "SEPARATE_SPECULAR_COLOR" = .separateSpecularColor ∧ PassStateLightModelColorControlType.fromString "SEPARATE_SPECULAR_COLOR?" = .invalid := by decide +kernel

/-- `FUDaePassState`; the number of states and the invalid state have no names. -/
theorem passState_names : Names PassState.toString PassState.fromString (fun v => v ≠ .count ∧ v ≠ .invalid) .invalid :=
  .of_table _ (fun _ => rfl) (fun v => by cases v <;> decide +kernel) (by decide +kernel)

example : PassState.toString .blendFunc = "blend_func" ∧ PassState.fromString "blend_func" = .blendFunc ∧
    PassState.fromString "Blend_func" = .invalid := by decide +kernel

/-- `FUDaeInterpolation`: as above, except that the empty text is read as the Bezier interpolation. -/
theorem interpolation_names :
    Names Interpolation.toString (fun s => if s = "" then .unknown else Interpolation.fromString s) (· ≠ .unknown) .unknown ∧
    Interpolation.fromString "" = .bezier := by
  refine ⟨⟨fun v => by cases v <;> decide +kernel, fun v w => by cases v <;> cases w <;> decide +kernel, fun s h => ?_⟩, by decide +kernel⟩
  by_cases hs : s = ""
  · simp [hs]
  · have h1 := h .step (by decide)
    have h2 := h .linear (by decide)
    have h3 := h .bezier (by decide)
    have h4 := h .tcb (by decide)
    simp only [Interpolation.toString] at h1 h2 h3 h4
    simp [Interpolation.fromString, firstMatch, hs, h1, h2, h3, h4]

example : Interpolation.fromString "LINEAR" = .linear ∧ Interpolation.fromString "linear" = .unknown := by decide +kernel

/-- The full statement for the texture filters: every value but `UNKNOWN` has a name. -/
def FilterNames : Prop :=
  Names TextureFilterFunction.toString TextureFilterFunction.fromString (· ≠ .unknown) .unknown

/-- It fails: `LINEAR` is written as "UNKNOWN", and read back as the unknown filter. -/
theorem textureFilter_violated : ¬ FilterNames := fun h => absurd (h.back .linear (by decide)) (by decide +kernel)

/-- What holds for the texture filters: every value but `LINEAR` and `UNKNOWN` has a name, and the name "LINEAR" is still read. Missing: the name of `LINEAR`
is not written. -/
theorem textureFilter_partial :
    Names TextureFilterFunction.toString (fun s => if s = "LINEAR" then .unknown else TextureFilterFunction.fromString s)
      (fun v => v ≠ .unknown ∧ v ≠ .linear) .unknown ∧
    TextureFilterFunction.fromString "LINEAR" = .linear := by
  refine ⟨⟨fun v => by cases v <;> decide +kernel, fun v w => by cases v <;> cases w <;> decide +kernel, fun s h => ?_⟩, by decide +kernel⟩
  by_cases hs : s = "LINEAR"
  · simp [hs]
  · have h1 := h .none (by decide)
    have h2 := h .nearest (by decide)
    have h3 := h .nearestMipmapNearest (by decide)
    have h4 := h .linearMipmapNearest (by decide)
    have h5 := h .nearestMipmapLinear (by decide)
    have h6 := h .linearMipmapLinear (by decide)
    simp only [TextureFilterFunction.toString] at h1 h2 h3 h4 h5 h6
    simp [TextureFilterFunction.fromString, firstMatch, hs, h1, h2, h3, h4, h5, h6]

example : TextureFilterFunction.fromString "NEAREST" = .nearest ∧ TextureFilterFunction.toString .linear = "UNKNOWN" := by decide +kernel

/-- What becomes of the values without a name when they are written and read again: most are kept, but the unknown blend mode is written as the name of the mode
`NONE`, and the unknown morph method and infinity are read as the fallback values. -/
theorem unnamed_values :
    Interpolation.fromString (Interpolation.toString .unknown) = .unknown ∧
    SplineType.fromString (SplineType.toString .unknown) = .unknown ∧
    SplineForm.fromString (SplineForm.toString .unknown) = .unknown ∧
    TextureWrapMode.fromString (TextureWrapMode.toString .unknown) = .unknown ∧
    GeometryInput.fromString (GeometryInput.toString .unknown) = .unknown ∧
    ProfileType.fromString (ProfileType.toString .unknown) = .unknown ∧
    PassState.fromString (PassState.toString .invalid) = .invalid ∧
    BlendMode.fromString (BlendMode.toString .unknown) = .none ∧
    MorphMethod.fromString (MorphMethod.toString .unknown) = .normalized ∧
    Infinity.fromString (Infinity.toString .unknown) = .constant := by decide +kernel

/-- `FUDaeTextureChannel` is only read: there is exactly one text that is read as a given channel (so every other text is read as another channel, or as the
unknown one). -/
theorem textureChannel_read (v : TextureChannel) (h1 : v ≠ .count) (h2 : v ≠ .unknown) : ∃ s, ∀ t, TextureChannel.fromString t = v ↔ t = s := by
  have key : ∀ s, TextureChannel.fromString s = v → (∀ t, TextureChannel.fromString t = v → t = s) →
      ∃ s, ∀ t, TextureChannel.fromString t = v ↔ t = s := fun s a b => ⟨s, fun t => ⟨b t, fun e => e ▸ a⟩⟩
  have mem : ∀ t, TextureChannel.fromString t = v → _ := fun t h => mem_of_firstMatch h2 h
  cases v
  case ambient => exact key "AMBIENT" rfl fun t h => by simpa using mem t h
  case bump => exact key "BUMP" rfl fun t h => by simpa using mem t h
  case diffuse => exact key "DIFFUSE" rfl fun t h => by simpa using mem t h
  case displacement => exact key "DISPLACEMENT" rfl fun t h => by simpa using mem t h
  case emission => exact key "GLOW" rfl fun t h => by simpa using mem t h
  case filter => exact key "FILTER" rfl fun t h => by simpa using mem t h
  case reflection => exact key "REFLECTION" rfl fun t h => by simpa using mem t h
  case refraction => exact key "REFRACTION" rfl fun t h => by simpa using mem t h
  case shininess => exact key "SHININESS" rfl fun t h => by simpa using mem t h
  case specular => exact key "SPECULAR" rfl fun t h => by simpa using mem t h
  case specularLevel => exact key "SPECULAR-LEVEL" rfl fun t h => by simpa using mem t h
  case transparent => exact key "TRANSPARENT" rfl fun t h => by simpa using mem t h
  case count => exact absurd rfl h1
  case unknown => exact absurd rfl h2

example : TextureChannel.fromString "GLOW" = .emission ∧ TextureChannel.fromString "EMISSION" = .unknown := by decide +kernel

end Verif.Enum
