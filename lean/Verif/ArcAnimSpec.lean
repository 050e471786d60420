import Verif.ArcAnim
import Verif.ArcSpec

/-! # Terms used in the properties of saved and loaded animation curves -/

namespace Verif.FArc

open Verif.FEff (Text text)
open Verif.FConv (Ov shown)
open Verif.Enum (Interpolation Infinity)

/-- A pair of numbers as they are shown. -/
def shownPair (rnd : ℚ → ℚ) (p : ℚ × ℚ) : ℚ × ℚ := (shown rnd p.1, shown rnd p.2)

/-- The interpolation of a key with its numbers as they are shown. -/
def shownKind (rnd : ℚ → ℚ) : AKind → AKind
  | .bezier i o => .bezier (shownPair rnd i) (shownPair rnd o)
  | .tcb t c b i o => .tcb (shown rnd t) (shown rnd c) (shown rnd b) (shown rnd i) (shown rnd o)
  | k => k

/-- A key with its numbers as they are shown. -/
def shownKey (rnd : ℚ → ℚ) (k : AKey) : AKey := ⟨shown rnd k.input, shown rnd k.output, shownKind rnd k.kind⟩

/-- A pair of numbers from a list. -/
def pairOf (v : List ℚ) : ℚ × ℚ := (v.getD 0 0, v.getD 1 0)

/-- What becomes of the key `k` at `j` if its interpolation is read as `i`: the tangents and the tensions are those of the file if it has such, else those of a new key. -/
def keyAs (rnd : ℚ → ℚ) (ks : List AKey) (j : Nat) (k : AKey) (i : Interpolation) : AKey :=
  ⟨shown rnd k.input, shown rnd k.output,
    match i with
    | .bezier => if hasBezier ks then .bezier (shownPair rnd (pairOf (inTan k))) (shownPair rnd (pairOf (outTan k)))
      else newKind (ks.map fun k => shown rnd k.input) j (shown rnd k.input) (shown rnd k.output) .bezier
    | .tcb => if hasTcb ks then shownKind rnd (.tcb ((tcbOf k).getD 0 0) ((tcbOf k).getD 1 0) ((tcbOf k).getD 2 0) (pairOf (easeOf k)).1 (pairOf (easeOf k)).2) else .tcb (1 / 2) (1 / 2) (1 / 2) 0 0
    | .step => .step
    | .linear => .linear
    | .unknown => .unknown⟩

/-- The keys of a curve, read with the interpolations `is`. -/
def keysAs (rnd : ℚ → ℚ) (is : List Interpolation) (ks : List AKey) : List AKey := ks.mapIdx fun j k => keyAs rnd ks j k (is.getD j .bezier)

/-- The address of the values that a curve drives, after the pointer. -/
def fullQual (c : APlaced) : Text := (if 0 ≤ c.elem then 40 :: (intText c.elem ++ [41]) else []) ++ c.qual

/-- The channel that is made of a curve when its interpolations are read as `is`; a curve without keys loses its infinities and its driver, and a negative index of a driver becomes zero. -/
def chanAs (rnd : ℚ → ℚ) (is : List Interpolation) (pointer : Text) (c : APlaced) : AChan :=
  if c.keys = [] then { pointer := pointer, qual := fullQual c, curves := [{}] }
  else { pointer := pointer, qual := fullQual c, curves := [⟨keysAs rnd is c.keys, c.pre, c.post⟩], driver := c.driver.map fun d => (d.1, if d.2 < 0 then 0 else d.2) }

/-- A pointer: not empty, without `(`, `[` and `.`; the bound on the length is that of `size_t`. -/
def Pointer (t : Text) : Prop := Plain t ∧ t ≠ [] ∧ t.length < 2 ^ 62 ∧ ∀ c ∈ t, c ≠ 40 ∧ c ≠ 91 ∧ c ≠ 46

/-- A qualifier: empty or starting with `(`, `[` or `.`. -/
def Qualifier (t : Text) : Prop := Plain t ∧ (t = [] ∨ ∃ r, t = 40 :: r ∨ t = 91 :: r ∨ t = 46 :: r)

/-- A curve that a file can hold. -/
structure GoodCurve (c : APlaced) : Prop where
  count : 2 * c.keys.length < 2 ^ 32
  pre : c.pre ≠ .unknown
  post : c.post ≠ .unknown
  qual : Qualifier c.qual
  fits : (fullQual c).length < 2 ^ 62
  driver : ∀ d ∈ c.driver, Pointer d.1 ∧ d.2 + 48 < 2 ^ 31

/-- The elements written for the channels of an animation, each with its pointer. -/
def writeChannels (fmt : ℚ → Text) (junk : APlaced → List Interpolation) (anim : Text) (chs : List (Text × List APlaced)) : Option (List Node) :=
  (chs.mapM fun ch => writeChannel fmt junk anim ch.1 ch.2).map List.flatten

/-- No two elements with ids have the same CRC-32. -/
def Apart (ks : List Node) : Prop := ∀ x ∈ ks, x.has (text "id") = true → ∀ y ∈ ks, nodeCrc x = nodeCrc y → x = y

end Verif.FArc
