import Verif.TreeTerms
import Verif.TreeAux
import Verif.TreeProps
import Verif.Base64Aux
import Verif.Base64Props
import Verif.Crc32Spec
import Verif.Crc32Aux
import Verif.Crc32Props
import Verif.VecSpec
import Verif.VecAux
import Verif.VecProps
import Verif.SortAux
import Verif.SortProps
import Verif.StrSpec
import Verif.StrAux
import Verif.StrProps
import Verif.StrSearchSpec
import Verif.StrSearchAux
import Verif.StrSearchProps
import Verif.BuilderSpec
import Verif.BuilderAux
import Verif.BuilderProps
import Verif.ConvTerms
import Verif.ConvAux
import Verif.ConvProps
import Verif.ConvFloatSpec
import Verif.ConvFloatAux
import Verif.ConvFloatProps
import Verif.ConvMoreSpec
import Verif.ConvMoreAux
import Verif.ConvMoreProps
import Verif.ConvTupleAux
import Verif.ConvTupleProps
import Verif.UniqueAux
import Verif.UniqueProps
import Verif.UriSpec
import Verif.UriAux
import Verif.UriProps
import Verif.XmlTextSpec
import Verif.XmlTextAux
import Verif.XmlTextProps
import Verif.DocIdsSpec
import Verif.DocIdsAux
import Verif.DocIdsProps
import Verif.TrackAux
import Verif.TrackProps
import Verif.EventSpec
import Verif.EventAux
import Verif.EventProps
import Verif.ObjTypeSpec
import Verif.ObjTypeAux
import Verif.ObjTypeProps
import Verif.VersionSpec
import Verif.VersionAux
import Verif.VersionProps
import Verif.FlagsSpec
import Verif.FlagsAux
import Verif.FlagsProps
import Verif.OwnerAux
import Verif.OwnerProps
import Verif.SceneAux
import Verif.SceneProps
import Verif.IterAux
import Verif.IterProps
import Verif.PolyProps
import Verif.UnifyTerms
import Verif.UnifyAux
import Verif.UnifyProps
import Verif.XmlSortProps
import Verif.SkinAux
import Verif.SkinProps
import Verif.CurveSpec
import Verif.CurveAux
import Verif.CurveProps
import Verif.CurveClipSpec
import Verif.CurveClipAux
import Verif.CurveClipProps
import Verif.GeoProps
import Verif.GeoRotProps
import Verif.QuatProps
import Verif.QuatAngleProps
import Verif.BoundBoxProps
import Verif.BoundSphereProps
import Verif.EnumProps
import Verif.PathProps
import Verif.CurveMulti
import Verif.CurveMultiSpec
import Verif.CurveMultiLemmas
import Verif.CurveMultiEval
import Verif.CurveMultiProps
import Verif.Lib
import Verif.LibSpec
import Verif.LibLemmas
import Verif.LibSub
import Verif.LibProps
import Verif.Pack
import Verif.PackSpec
import Verif.PackLemmas
import Verif.PackProps
import Verif.Fit
import Verif.FitSpec
import Verif.FitLemmas
import Verif.FitTerms
import Verif.FitAux
import Verif.FitProps
import Verif.MeshEdit
import Verif.MeshEditSpec
import Verif.MeshTrackLemmas
import Verif.MeshEditLemmas
import Verif.MeshEditTerms
import Verif.MeshEditAux
import Verif.MeshEditProps
import Verif.Xform
import Verif.XformSpec
import Verif.XformLemmas
import Verif.XformProps
import Verif.NodeClone
import Verif.NodeCloneSpec
import Verif.NodeCloneAux
import Verif.NodeCloneProps
import Verif.AnimList
import Verif.AnimListSpec
import Verif.AnimListLemmas
import Verif.AnimListProps
import Verif.Animated
import Verif.AnimatedSpec
import Verif.AnimatedLemmas
import Verif.AnimatedProps
import Verif.Extra
import Verif.ExtraSpec
import Verif.ExtraLemmas
import Verif.ExtraTerms
import Verif.ExtraAux
import Verif.ExtraProps
import Verif.EntityRef
import Verif.EntityRefSpec
import Verif.EntityRefLemmas
import Verif.EntityRefEffect
import Verif.EntityRefSteps
import Verif.EntityRefAux
import Verif.EntityRefProps
import Verif.Volume
import Verif.VolumeSpec
import Verif.VolumeLemmas
import Verif.VolumeProps
import Verif.Phys
import Verif.PhysSpec
import Verif.PhysLemmas
import Verif.PhysProps
import Verif.Color
import Verif.ColorSpec
import Verif.ColorLemmas
import Verif.ColorProps
import Verif.Scalar
import Verif.ScalarSpec
import Verif.ScalarLemmas
import Verif.ScalarProps
import Verif.Ctrl
import Verif.CtrlSpec
import Verif.CtrlLemmas
import Verif.CtrlSteps
import Verif.CtrlAux
import Verif.CtrlProps
import Verif.Inst
import Verif.InstSpec
import Verif.InstLemmas
import Verif.InstAux
import Verif.InstProps
import Verif.InstMat
import Verif.InstMatSpec
import Verif.InstMatLemmas
import Verif.InstMatProps
import Verif.Effect
import Verif.EffectSpec
import Verif.EffectLemmas
import Verif.EffectProps
import Verif.Tex
import Verif.TexSpec
import Verif.TexLemmas
import Verif.TexProps
import Verif.Pass
import Verif.PassSpec
import Verif.PassLemmas
import Verif.PassProps
import Verif.Std
import Verif.StdSpec
import Verif.StdLemmas
import Verif.StdScene
import Verif.StdMesh
import Verif.StdDoc
import Verif.StdPivot
import Verif.StdProps
import Verif.CurveConv
import Verif.CurveConvSpec
import Verif.CurveConvLemmas
import Verif.CurveConvAux
import Verif.CurveConvProps
import Verif.StdAnim
import Verif.StdAnimSpec
import Verif.StdAnimLemmas
import Verif.StdAnimAux
import Verif.StdAnimProps
import Verif.FxParam
import Verif.FxParamSpec
import Verif.FxParamAux
import Verif.FxParamProps
import Verif.FxClone
import Verif.FxCloneSpec
import Verif.FxCloneLemmas
import Verif.FxCloneAux
import Verif.FxCloneProps
import Verif.Spline
import Verif.SplineSpec
import Verif.SplineLemmas
import Verif.SplineTerms
import Verif.SplineAux
import Verif.SplineProps
import Verif.Ent
import Verif.EntSpec
import Verif.EntAux
import Verif.EntProps
import Verif.Penumbra
import Verif.PenumbraAux
import Verif.PenumbraProps
import Verif.Arc
import Verif.ArcSpec
import Verif.ArcLemmas
import Verif.ArcSourceAux
import Verif.ArcSourceProps
import Verif.ArcExtra
import Verif.ArcExtraSpec
import Verif.ArcExtraAux
import Verif.ArcExtraProps
import Verif.ArcAsset
import Verif.ArcAssetSpec
import Verif.ArcAssetAux
import Verif.ArcAssetProps
import Verif.ArcEntity
import Verif.ArcEntitySpec
import Verif.ArcEntityLemmas
import Verif.ArcEntityAux
import Verif.ArcEntityProps
import Verif.ArcPoly
import Verif.ArcPolySpec
import Verif.ArcPolyLemmas
import Verif.ArcPolyAux
import Verif.ArcPolyTess
import Verif.ArcPolyFaces
import Verif.ArcPolyHead
import Verif.ArcPolyColumns
import Verif.ArcPolyAll
import Verif.ArcPolyProps
import Verif.ArcMesh
import Verif.ArcMeshSpec
import Verif.ArcMeshLemmas
import Verif.ArcMeshAux
import Verif.ArcMeshAll
import Verif.ArcMeshParts
import Verif.ArcMeshProps
import Verif.ArcSid
import Verif.ArcSidSpec
import Verif.ArcSidLemmas
import Verif.ArcSidProps
import Verif.ArcTrans
import Verif.ArcTransSpec
import Verif.ArcTransLemmas
import Verif.ArcTransAux
import Verif.ArcTransProps
import Verif.ArcScene
import Verif.ArcSceneSpec
import Verif.ArcSceneLemmas
import Verif.ArcSceneAux
import Verif.ArcSceneProps
import Verif.ArcCam
import Verif.ArcCamSpec
import Verif.ArcCamLemmas
import Verif.ArcCamProps
import Verif.ArcLight
import Verif.ArcLightSpec
import Verif.ArcLightLemmas
import Verif.ArcLightProps
import Verif.ArcSkin
import Verif.ArcSkinSpec
import Verif.ArcSkinLemmas
import Verif.ArcSkinParts
import Verif.ArcSkinProps
import Verif.ArcMorph
import Verif.ArcMorphSpec
import Verif.ArcMorphLemmas
import Verif.ArcMorphProps
import Verif.ArcDoc
import Verif.ArcDocSpec
import Verif.ArcDocLemmas
import Verif.ArcDocParts
import Verif.ArcDocProps
import Verif.ArcInst
import Verif.ArcInstSpec
import Verif.ArcInstLemmas
import Verif.ArcInstProps
import Verif.ArcAnim
import Verif.ArcAnimSpec
import Verif.ArcAnimLemmas
import Verif.ArcAnimParts
import Verif.ArcAnimPlan
import Verif.ArcAnimProps
import Verif.ArcLink
import Verif.ArcLinkSpec
import Verif.ArcLinkLemmas
import Verif.ArcLinkProps
import Verif.Joint
import Verif.JointSpec
import Verif.JointLemmas
import Verif.JointProps
import Verif.ArcPlainEnt
import Verif.ArcClip
import Verif.ArcClipSpec
import Verif.ArcClipLemmas
import Verif.ArcClipProps
import Verif.ArcTree
import Verif.ArcTreeSpec
import Verif.ArcTreeLemmas
import Verif.ArcTreeProps
import Verif.ArcSurf
import Verif.ArcSurfSpec
import Verif.ArcSurfLemmas
import Verif.ArcSurfProps
import Verif.ArcParam
import Verif.ArcParamSpec
import Verif.ArcParamLemmas
import Verif.ArcParamProps
import Verif.ArcState
import Verif.ArcStateSpec
import Verif.ArcStateLemmas
import Verif.ArcStateProps
import Verif.ArcPass
import Verif.ArcPassSpec
import Verif.ArcPassLemmas
import Verif.ArcPassProps
import Verif.ArcFx
import Verif.ArcFxSpec
import Verif.ArcFxSids
import Verif.ArcFxLemmas
import Verif.ArcFxLoad
import Verif.ArcFxProps
import Verif.ArcStd
import Verif.ArcStdSpec
import Verif.ArcStdLemmas
import Verif.ArcStdFold
import Verif.ArcStdProps
import Verif.ArcImg
import Verif.ArcImgSpec
import Verif.ArcImgLemmas
import Verif.ArcImgProps
import Verif.ArcExtraSids
import Verif.ArcFxWhole
import Verif.ArcStdWhole
import Verif.ArcEff
import Verif.ArcEffSpec
import Verif.ArcEffLemmas
import Verif.ArcEffProps
import Verif.ArcTexLink
import Verif.ArcTexLinkSpec
import Verif.ArcTexLinkLemmas
import Verif.ArcTexLinkProps
import Verif.ArcLinkData
import Verif.ArcLinkDataSpec
import Verif.ArcLinkDataLemmas
import Verif.ArcLinkDataProps
import Verif.ArcSpline
import Verif.ArcSplineSpec
import Verif.ArcSplineLemmas
import Verif.ArcSplineProps
import Verif.ArcSolid
import Verif.ArcSolidSpec
import Verif.ArcSolidLemmas
import Verif.ArcSolidProps
import Verif.ArcPShape
import Verif.ArcPShapeSpec
import Verif.ArcPShapeLemmas
import Verif.ArcPShapeProps
import Verif.ArcRigid
import Verif.ArcRigidSpec
import Verif.ArcRigidLemmas
import Verif.ArcRigidProps
import Verif.ArcBody
import Verif.ArcBodySpec
import Verif.ArcBodyLemmas
import Verif.ArcBodyProps
import Verif.ArcWhole
import Verif.ArcWholeSpec
import Verif.ArcWholeLemmas
import Verif.ArcWholeProps
import Verif.ArcGeo
import Verif.ArcGeoLemmas
import Verif.ArcGeoProps
import Verif.ArcPtr
import Verif.ArcPtrSpec
import Verif.ArcPtrLemmas
import Verif.ArcPtrProps
import Verif.Hull
import Verif.HullSpec
import Verif.HullLemmas
import Verif.HullProps
import Verif.Plugin
import Verif.PluginSpec
import Verif.PluginProps
import Verif.Load
import Verif.LoadSpec
import Verif.LoadLemmas
import Verif.LoadProps
import Verif.ArcPInst
import Verif.ArcPInstSpec
import Verif.ArcPInstProps
import Verif.ArcPModel
import Verif.ArcPModelSpec
import Verif.ArcPModelProps
import Verif.ArcCustom
import Verif.ArcCustomProps
import Verif.ArcLayers
import Verif.ArcLayersSpec
import Verif.ArcLayersProps
import Verif.SampleAnim
import Verif.SampleAnimSpec
import Verif.SampleAnimProps
import Verif.Infl
import Verif.InflSpec
import Verif.InflProps
import Verif.SubIds
import Verif.SubIdsSpec
import Verif.SubIdsProps
import Verif.Scheme
import Verif.SchemeSpec
import Verif.SchemeProps
import Verif.RegDoc
import Verif.RegDocSpec
import Verif.RegDocProps
