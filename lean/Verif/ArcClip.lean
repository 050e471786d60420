import Verif.ArcEntity
import Verif.ArcInst
import Verif.ArcCam

/-!
# Model of the saving and loading of animation clips (FArchiveXML/FAXAnimationExport.cpp 200-233, FAXAnimationImport.cpp 434-478)

Animations are numbers; `ids` gives their ids. References to entities of other documents are left out, as in `ArcInst`.
-/

namespace Verif.FArc

open Verif.FEff (Text text)
open Verif.FConv (Ov DateTime)

/-- FCDAnimationClip.h 42-52: a clip: for each of its curves the animation of its channel (none for a curve without channel), the instances of animations and their names. -/
structure Clip where
  ent : Ent := {}
  start : ℚ := 0
  stop : ℚ := 0
  curves : List (Option Nat) := []
  anims : List IBase := []
  names : List Text := []

/-- FAXAnimationExport.cpp 211-221: the animation of one curve is noted unless it is there. -/
def noteAnim (l : List Nat) (c : Option Nat) : List Nat := match c with
  | none => l
  | some a => if a ∈ l then l else l ++ [a]

/-- FAXAnimationExport.cpp 225-227: the instance of an animation. -/
def animNode (ids : Nat → Text) (a : Nat) : Node := .elem (text "instance_animation") [(text "url", 35 :: ids a)] [] []

/-- FAXAnimationExport.cpp 205-206: the start and the end of a clip. -/
def clipTimes (fmt : ℚ → Text) (c : Clip) : List (Text × Text) := [(text "start", numText fmt c.start), (text "end", numText fmt c.stop)]

/-- FAXAnimationExport.cpp 200-233: `WriteAnimationClip`: the element and the clip afterwards. -/
def writeClip (ov : Ov) (fmt : ℚ → Text) (now : DateTime) (ids : Nat → Text) (c : Clip) : Option (Node × Clip) :=
  (writeEnt ov fmt now (text "animation_clip") c.ent ((c.curves.foldl noteAnim []).map (animNode ids))).map fun r =>
    (.elem r.1.name (r.1.attrs ++ clipTimes fmt c) [] r.1.kids, { c with ent := r.2 })

/-- The warnings of `LoadAnimationClip` (FAXAnimationImport.cpp 442, 451, 472). -/
inductive ClipWarning where
  | unknownElement | invalidTimes | emptyClip
deriving DecidableEq

/-- FCDAnimationClip.h 115: `SetAnimationName`. -/
def setAnimName (names : List Text) (i : Nat) (t : Text) : List Text := (if names.length ≤ i then names ++ List.replicate (i + 1 - names.length) [] else names).set i t

/-- FAXAnimationImport.cpp 459-467: an instance of an animation. `LoadEntityInstance` does not fail. -/
def loadClipAnim (ov : Ov) (c : Clip) (k : Node) : Option Clip :=
  (loadInst ov k).bind fun b => (prop (some k) (text "name")).map fun t =>
    { c with anims := c.anims ++ [b], names := setAnimName c.names ((c.anims ++ [b]).length - 1) t }

/-- FAXAnimationImport.cpp 434-478: `LoadAnimationClip` into a clip: the clip afterwards and the warnings. -/
def loadClip (ov : Ov) (now : DateTime) (c : Clip) (n : Node) : Option (Clip × List ClipWarning) :=
  (loadEnt ov now c.ent n).bind fun s =>
    if n.name ≠ text "animation_clip" then some ({ c with ent := s }, [.unknownElement])
    else (prop (some n) (text "start")).bind fun a => (readNum ov a).bind fun a => (prop (some n) (text "end")).bind fun b => (readNum ov b).bind fun b =>
      ((n.children (text "instance_animation")).foldlM (loadClipAnim ov) { c with ent := s, start := a, stop := b }).map fun c =>
        (c, (if c.stop - c.start < tolerance then [.invalidTimes] else []) ++ if c.curves = [] then [.emptyClip] else [])

end Verif.FArc
