import Verif.ArcEntity
import Verif.ArcAnimSpec

/-!
# Model of the saving and loading of trees of animations (FArchiveXML/FAXAnimationExport.cpp 176-198, FAXAnimationImport.cpp 397-432)

Animations with their common part, their channels (see `ArcAnim`) and their child animations. Channels and animations that are transient, and so not saved, are left out.
-/

namespace Verif.FArc

open Verif.FEff (Text text)
open Verif.FConv (Ov DateTime)
open Verif.Enum (Interpolation)

/-- FCDAnimation.h 52-58: an animation to be saved; `mute` is the flag of its extra tree that says that it is transient. -/
inductive ATree where
  | mk (ent : Ent) (mute : Bool) (chans : List (Text × List APlaced)) (kids : List ATree)

/-- FCDAnimation.h 52-58: an animation that was loaded, whose channels are not linked yet. -/
inductive LTree where
  | mk (ent : Ent) (mute : Bool) (chans : List AChan) (kids : List LTree)

/-- FAXSceneExport.cpp 246-290 and FArchiveXML.h 413-418: the common part of an animation around the elements `mid`; a transient extra tree is not written. -/
def writeAnimEnt (ov : Ov) (fmt : ℚ → Text) (now : DateTime) (mute : Bool) (s : Ent) (mid : List Node) : Option Node :=
  (writeEntAsset ov fmt now s.asset).bind fun a => (writeEntityExtra s.note s.extra).map fun x =>
    .elem (text "animation") (entAttrs true s) [] (a.1 ++ mid ++ if mute then [] else x.1)

mutual
/-- FAXAnimationExport.cpp 176-198: `WriteAnimation`. What it changes in the animation is left out (see C145). -/
def writeATree (ov : Ov) (fmt : ℚ → Text) (now : DateTime) (junk : APlaced → List Interpolation) : ATree → Option Node
  | .mk s mute chs kids => (writeChannels fmt junk s.id chs).bind fun es => (writeATrees ov fmt now junk kids).bind fun ks => writeAnimEnt ov fmt now mute s (es ++ ks)
/-- FAXAnimationExport.cpp 189-194: the child animations. -/
def writeATrees (ov : Ov) (fmt : ℚ → Text) (now : DateTime) (junk : APlaced → List Interpolation) : List ATree → Option (List Node)
  | [] => some []
  | t :: ts => (writeATree ov fmt now junk t).bind fun k => (writeATrees ov fmt now junk ts).map (k :: ·)
end

/-- FAXAnimationImport.cpp 41-45: the target of a channel is noted in the extra tree of the animation. -/
def noteTarget (e : FExtra.Extra) (x : Text × Text) : FExtra.Extra :=
  let r := FExtra.addType e (text "AnimTargets")
  r.1.modify r.2 fun t =>
    let y := FExtra.addTechnique t.techs (text "TEMP")
    { t with techs := y.1.modify y.2 fun u => { u with node := FExtra.addParameter (text "pointer") x.2 (FExtra.addParameter (text "pointer") x.1 u.node) } }

/-- FAXAnimationImport.cpp 37, 41-45: as `noteTarget`, for the element of a channel. -/
def noteChannel (e : FExtra.Extra) (k : Node) : Option FExtra.Extra := (prop (some k) (text "target")).bind fun t => (FConv.splitTarget t).map (noteTarget e)

mutual
/-- FAXAnimationImport.cpp 397-432 and 39-46: `LoadAnimation` of a new animation; `around` are the children of the elements around it. With a channel its extra tree is made transient. -/
def loadATree (ov : Ov) (now : DateTime) (around : List Node) : Node → Option LTree
  | .elem nm as t ks => (loadEnt ov now {} (.elem nm as t ks)).bind fun s =>
    if nm ≠ text "animation" then some (.mk s false [] [])
    else (loadChannels ov (.elem nm as t ks) around).bind fun c => ((Node.elem nm as t ks).children (text "channel")).foldlM noteChannel s.extra |>.bind fun e =>
      (loadATrees ov now (ks ++ around) ks).map fun l => .mk { s with extra := e } (!((Node.elem nm as t ks).children (text "channel")).isEmpty) c.2 l
/-- FAXAnimationImport.cpp 424-430: the child animations. -/
def loadATrees (ov : Ov) (now : DateTime) (around : List Node) : List Node → Option (List LTree)
  | [] => some []
  | k :: ks => if k.name = text "animation" then (loadATree ov now around k).bind fun r => (loadATrees ov now around ks).map (r :: ·) else loadATrees ov now around ks
end

end Verif.FArc
