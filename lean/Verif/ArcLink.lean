import Verif.ArcAnim
import Verif.Animated

/-!
# Model of the linking of animation channels (FArchiveXML/FAXAnimationImport.cpp, FAXAnimationExport.cpp, FAXImportLinking.cpp)

Curves are of any type `C`. The data that the archive keeps about each channel are in the channel; it has been loaded, so they are there. Animated values are those
of Animated.lean. Animations form trees. Dirty flags and the registration of animated values are left out.
-/

namespace Verif.FArc

open Verif.FStr (Ch)
open Verif.FEff (Text text)
open Verif.FConv (Ov)

/-- FAXStructures.h 128-146, FCDAnimationChannel.h: a loaded channel: its curves, what they drive and what drives them. -/
structure LChan (C : Type) where
  pointer : Text
  qual : Text
  curves : List C
  driver : Option (Text × Int) := none
  deriving DecidableEq

/-- FCDAnimation.h: an animation: its channels and its children. -/
inductive LAnim (C : Type) where
  | node (channels : List (LChan C)) (children : List (LAnim C))

variable {C : Type}

mutual
/-- FAXAnimationImport.cpp 622-643: the channels of an animation that point at `pointer`, before those of its children. -/
def LAnim.find (pointer : Text) : LAnim C → List (LChan C)
  | .node chs kids => chs.filter (fun ch => decide (ch.pointer = pointer)) ++ LAnim.findAll pointer kids
/-- The loops over animations (FAXAnimationImport.cpp 615-619, 639-642). -/
def LAnim.findAll (pointer : Text) : List (LAnim C) → List (LChan C)
  | [] => []
  | a :: as => a.find pointer ++ LAnim.findAll pointer as
end

/-- FAXAnimationImport.cpp 610-620: `FindAnimationChannels` of a document with the animations `lib`. -/
def findChannels (lib : List (LAnim C)) (pointer : Text) : List (LChan C) := if pointer = [] then [] else LAnim.findAll pointer lib

/-- FCDAnimated.cpp 357: `XYZW`. -/
def xyzw : List Text := [text ".X", text ".Y", text ".Z", text ".W"]

/-- FCDAnimated.cpp 358: `RGBA`. -/
def rgba : List Text := [text ".R", text ".G", text ".B", text ".A"]

/-- FAXAnimationImport.cpp 555-561: the place of a qualifier among the first `n` standard ones. -/
def standardIdx (n : Nat) (q : Text) : Option Nat := (List.range n).find? fun i => decide (xyzw[i]? = some q ∨ rgba[i]? = some q)

/-- FAXAnimationImport.cpp 546: an `int32` as a `size_t`. -/
def asSize (m : Int) : Nat := (m % 2 ^ 64).toNat

/-- FAXAnimationImport.cpp 536-574: a qualified channel of a value that is not in an array. -/
def linkNamed (ov : Ov) (s : Bool × FAnim.Anim C) (q : Text) (c : C) : Option (Bool × FAnim.Anim C) :=
  match s.2.qualifiers.findIdx? (fun x => decide (x = q)) with
  | some i => some (FAnim.addCurve s.2 i c)
  | none => (FConv.parseQualifier ov (q ++ [0])).map fun m =>
    if asSize m < s.2.qualifiers.length then FAnim.addCurve s.2 (asSize m) c
    else match standardIdx (min 4 s.2.qualifiers.length) q with
      | some i => FAnim.addCurve s.2 i c
      | none => s

/-- FAXAnimationImport.cpp 508-585: one channel. The check that a qualified channel has one curve only reports. -/
def linkChannel (ov : Ov) (s : Bool × FAnim.Anim C) (ch : LChan C) : Option (Bool × FAnim.Anim C) :=
  match ch.curves with
  | [] => some s
  | c :: _ =>
    if ch.qual ≠ [] then
      if s.2.elem ≠ -1 then (FConv.parseQualifier ov (ch.qual ++ [0])).map fun e => if s.2.elem ≠ e then s else FAnim.addCurve s.2 0 c
      else linkNamed ov s ch.qual c
    else some ((ch.curves.take s.2.qualifiers.length).zipIdx.foldl (fun s x => (true, (FAnim.addCurve s.2 x.2 x.1).2)) s)

/-- FAXAnimationImport.cpp 504-608: `ProcessChannels`. -/
def processChannels (ov : Ov) (a : FAnim.Anim C) (chs : List (LChan C)) : Option (Bool × FAnim.Anim C) := chs.foldlM (linkChannel ov) (false, a)

/-- FAXEntityImport.cpp 247-266: `FindAnimationChannelsArrayIndices`. -/
def arrayIndices (ov : Ov) (chs : List (LChan C)) : Option (List Int) := (chs.mapM fun ch => FConv.parseQualifier ov (ch.qual ++ [0])).map fun is => is.filter fun i => decide (i ≠ -1)

/-- FAXAnimationExport.cpp 271-293, 490-496: the values that a curve at place `i` of an animated value drives, after the pointer. -/
def hook (a : FAnim.Anim C) (i : Nat) : Text := (if 0 ≤ a.elem then 40 :: (intText a.elem ++ [41]) else []) ++ (a.qualifiers[i]?).getD []

/-! ## Drivers -/

/-- FAXImportLinking.cpp 68-88: whether a channel is driven by the value with this pointer and this many floats. -/
def isDriven (pointer : Text) (count : Nat) (ch : LChan C) : Bool :=
  match ch.driver with
  | none => false
  | some d => decide (d.1 ≠ []) && decide (pointer = d.1) && decide (0 ≤ d.2 ∧ d.2 < count)

mutual
/-- FAXImportLinking.cpp 54-66: the curves of an animation that get the driver, each with the index of the float, in the order of the calls of `SetDriver`. -/
def LAnim.drive (pointer : Text) (count : Nat) : LAnim C → List (C × Int)
  | .node chs kids => chs.flatMap (fun ch => if isDriven pointer count ch then ch.curves.map fun c => (c, (ch.driver.map (·.2)).getD 0) else []) ++ LAnim.driveAll pointer count kids
/-- FAXImportLinking.cpp 42-52: `LinkDriver` of the animations. -/
def LAnim.driveAll (pointer : Text) (count : Nat) : List (LAnim C) → List (C × Int)
  | [] => []
  | a :: as => a.drive pointer count ++ LAnim.driveAll pointer count as
end

mutual
/-- FAXImportLinking.cpp 90-113: `LinkAnimation`: the channels for which a missing driver is reported; `driven` are the curves that have a driver. -/
def LAnim.reports (driven : C → Bool) : LAnim C → List (LChan C)
  | .node chs kids => chs.filter (fun ch => decide ((ch.driver.map (·.1)).getD [] ≠ []) && (ch.curves.head?).any driven) ++ LAnim.reportsAll driven kids
/-- The loop over the children (FAXImportLinking.cpp 107-110). -/
def LAnim.reportsAll (driven : C → Bool) : List (LAnim C) → List (LChan C)
  | [] => []
  | a :: as => a.reports driven ++ LAnim.reportsAll driven as
end

end Verif.FArc
