import Verif.Curve

/-!
# Model of the animation clips of a curve (FCDocument/FCDAnimationCurve.cpp)

Clips are numbers. `none` is undefined behaviour: an access behind the end of the list of offsets.
-/

namespace Verif.Curve

variable {K : Type} [Field K] [LinearOrder K]

/-- FCDAnimationCurve.h 58-70: a curve and its animation clips. -/
structure Clips (K : Type) where
  keys : List (Key K)
  clips : List Nat
  offsets : List K
  current : Option Nat
  currentOffset : K
deriving DecidableEq

/-- FCDAnimationCurve.cpp 105-113: a new curve has no clips. -/
def Clips.new (keys : List (Key K)) : Clips K := ⟨keys, [], [], none, 0⟩

/-- FCDAnimationCurve.cpp 302: a key is moved in time. -/
def moveKey (offset : K) (k : Key K) : Key K := { k with input := k.input + offset }

/-- FCDAnimationCurve.cpp 286-294: the place of a clip, the number of clips if it is not there. -/
def findClip (clip : Option Nat) (clips : List Nat) : Nat := clips.findIdx fun c => decide (some c = clip)

/-- FCDAnimationCurve.cpp 280-307: `SetCurrentAnimationClip`; `none` is the null pointer. -/
def setCurrent (c : Clips K) (clip : Option Nat) : Option (Clips K) :=
  if c.current = clip then some c
  else if findClip clip c.clips < c.clips.length then
    (c.offsets[findClip clip c.clips]?).map fun o =>
    { c with current := clip, currentOffset := o, keys := c.keys.map (moveKey (o - c.currentOffset)) }
  else some { c with current := none }

/-- FCDAnimationCurve.cpp 598-603: `RegisterAnimationClip`, called by FCDAnimationClip::AddClipCurve; `start` is the start time of the clip. -/
def register (c : Clips K) (clip : Nat) (start : K) : Clips K := { c with clips := c.clips ++ [clip], offsets := c.offsets ++ [-start] }

/-- FCDAnimationCurve.cpp 197-200: `AddClip`. -/
def addClip (c : Clips K) (clip : Nat) : Clips K := { c with clips := c.clips ++ [clip] }

/-- FCDAnimationCurve.cpp 585-596: `SetClipOffset`. -/
def setClipOffset (c : Clips K) (offset : K) (clip : Nat) : Option (Clips K) :=
  if findClip (some clip) c.clips < c.clips.length then
    if findClip (some clip) c.clips < c.offsets.length then some { c with offsets := c.offsets.set (findClip (some clip) c.clips) offset } else none
  else some c

/-- FCDAnimationCurve.cpp 264-269: the clips of a clone; each clip of the original is cloned, `clones` are the new clips and their start times. -/
def cloneClips (c : Clips K) (clones : List (Nat × K)) : Clips K := clones.foldl (fun c cl => addClip (register c cl.1 cl.2) cl.1) c

/-- FCDAnimationCurve.cpp 222-278: `Clone`, into a new curve, with clips. -/
def cloneCurve (c : Clips K) (clones : List (Nat × K)) : Clips K :=
  { cloneClips (Clips.new c.keys) clones with offsets := (cloneClips (Clips.new c.keys) clones).offsets ++ c.offsets }

end Verif.Curve
