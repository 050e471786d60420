import Verif.CurveShift
import Mathlib.Data.Rat.Floor
import Mathlib.Algebra.Order.Field.Rat

/-! # Terms used in the properties in CurveClipProps -/

namespace Verif.Curve

variable {K : Type} [Field K] [LinearOrder K]

/-- What is done with the clips of a curve. -/
inductive ClipOp (K : Type) where
  | register (clip : Nat) (start : K)
  | setOffset (offset : K) (clip : Nat)
  | select (clip : Option Nat)

def runClip (c : Clips K) : ClipOp K → Option (Clips K)
  | .register clip start => some (register c clip start)
  | .setOffset o clip => setClipOffset c o clip
  | .select clip => setCurrent c clip

variable [IsStrictOrderedRing K] [FloorRing K]

end Verif.Curve
