import Verif.ConvFloat
import Verif.StrSearch

/-!
# Model of the composite conversions of `FUStringConversion`: vectors, matrices, interleaved lists, date-times, name lists, targets

Numbers read as floats are exact rationals, as in `Verif/ConvFloat.lean`. An indeterminate result is `none`, like undefined behaviour.
-/

namespace Verif.FConv

open Verif.FStr (Ch)

/-- `ToFloat(value)` called `n` times. -/
def readFloats (ov : Ov) : Nat → List Ch → Option (List ℚ × List Ch)
  | 0, s => some ([], s)
  | n + 1, s => (toFloat ov s).bind fun r => (readFloats ov n r.2).map fun q => (r.1 :: q.1, q.2)

/-- FUStringConversion.hpp 214-239: `ToVector2` (`n = 2`) and `ToVector3` (`n = 3`): a default constructed vector, whose components are
indeterminate in release builds, is returned at the end of the text. -/
def toVector (ov : Ov) (n : Nat) (s : List Ch) : Option (List ℚ × List Ch) :=
  (deref s).bind fun c => if c = 0 then none else readFloats ov n s

/-- FUStringConversion.hpp 241-253: `ToVector4`. -/
def toVector4 (ov : Ov) (s : List Ch) : Option (List ℚ × List Ch) :=
  (deref s).bind fun c => if c = 0 then none
  else (readFloats ov 3 s).bind fun r => (deref r.2).bind fun d =>
    if d = 0 then some (r.1 ++ [1], r.2) else (toFloat ov r.2).map fun q => (r.1 ++ [q.1], q.2)

/-- A 4x4 matrix, `m i j` being `m[i][j]`. -/
abbrev Mat := Fin 4 → Fin 4 → ℚ

/-- FUStringConversion.hpp 186-190: the sixteen assignments: `mx[i][j]` is the number read at place `4 j + i`. -/
def matOfList (l : List ℚ) : Mat := fun i j => l.getD (4 * j.val + i.val) 0

/-- FUStringConversion.hpp 181-192: `ToMatrix`; at the end of the text the matrix keeps its value `old`. -/
def toMatrix (ov : Ov) (s : List Ch) (old : Mat) : Option (Mat × List Ch) :=
  (deref s).bind fun c => if c = 0 then some (old, s) else (readFloats ov 16 s).map fun r => (matOfList r.1, r.2)

/-- FUStringConversion.hpp 257-263: the order in which `ToString(builder, const FMMatrix44&)` writes the entries. -/
def matEntries (m : Mat) : List ℚ :=
  [m 0 0, m 1 0, m 2 0, m 3 0, m 0 1, m 1 1, m 2 1, m 3 1, m 0 2, m 1 2, m 2 2, m 3 2, m 0 3, m 1 3, m 2 3, m 3 3]

/-- FUStringConversion.hpp 14-16, 257-281: `VAL(x); SPACE; ...`: the values with single blanks between; `text` is the text of one. -/
def spaced (text : ℚ → Option (List Ch)) : List ℚ → Option (List Ch)
  | [] => some []
  | [x] => text x
  | x :: y :: rest => (text x).bind fun a => (spaced text (y :: rest)).map fun b => a ++ 32 :: b

/-- FUStringConversion.hpp 507-556: `ToVector2List`, `ToVector3List`, `ToVector4List`: as `toList` but without counting. -/
def toVecList (p : List Ch → Option (List ℚ × List Ch)) (s : List Ch) (array : List (List ℚ)) : Option (List (List ℚ)) :=
  (deref s).bind fun c =>
  if c = 0 then some (resizeTo [] array 0)
  else (fillOld p [] array s).bind fun r =>
    (pushRest p [] (r.2.2.length + 1) r.2.2).map fun more =>
      resizeTo [] (r.1 ++ r.2.1 ++ more) (r.1.length + more.length)

/-! ## interleaved lists -/

/-- FUStringConversion.hpp 446-451: one tuple read into the elements at `count` of the arrays; a NULL array skips its value. -/
def tupleOld {α : Type} (p : List Ch → Option (α × List Ch)) (count : Nat) :
    List (Option (List α)) → List Ch → Option (List (Option (List α)) × List Ch)
  | [], s => some ([], s)
  | a :: as, s => (deref s).bind fun c =>
    if c = 0 then some (a :: as, s)
    else (p s).bind fun r => match a with
      | none => (tupleOld p count as r.2).map fun q => (none :: q.1, q.2)
      | some l => if count < l.length then (tupleOld p count as r.2).map fun q => (some (l.set count r.1) :: q.1, q.2) else none

/-- FUStringConversion.hpp 444-452: the loop over the elements already there, from `count`, `n` of them left; the result includes
`validCount`. -/
def interOld {α : Type} (p : List Ch → Option (α × List Ch)) : Nat → Nat → List (Option (List α)) → List Ch →
    Option (List (Option (List α)) × Nat × List Ch)
  | 0, count, as, s => some (as, count, s)
  | n + 1, count, as, s => (deref s).bind fun c =>
    if c = 0 then some (as, count, s) else (tupleOld p count as s).bind fun r => interOld p n (count + 1) r.1 r.2

/-- FUStringConversion.hpp 467-472: one tuple pushed; the flag says whether every array was reached. -/
def tuplePush {α : Type} (p : List Ch → Option (α × List Ch)) :
    List (Option (List α)) → List Ch → Option (List (Option (List α)) × Bool × List Ch)
  | [], s => some ([], true, s)
  | a :: as, s => (deref s).bind fun c =>
    if c = 0 then some (a :: as, false, s)
    else (p s).bind fun r => (tuplePush p as r.2).map fun q => (a.map (· ++ [r.1]) :: q.1, q.2)

/-- FUStringConversion.hpp 464-474: the loop over the additional values; `fuel` bounds the iterations. -/
def interPush {α : Type} (p : List Ch → Option (α × List Ch)) : Nat → Nat → List (Option (List α)) → List Ch →
    Option (List (Option (List α)) × Nat)
  | 0, _, _, _ => none
  | fuel + 1, count, as, s => (deref s).bind fun c =>
    if c = 0 then some (as, count)
    else (tuplePush p as s).bind fun r => interPush p fuel (if r.2.1 then count + 1 else count) r.1 r.2.2

/-- FUStringConversion.hpp 387-433, 436-482: `ToInterleavedFloatList`, `ToInterleavedUInt32List`; `as` are the arrays, `none` being
NULL. `arrays[0]` is dereferenced. The `reserve` calls and the division by the stride have no effect on the contents. -/
def toInterleaved {α : Type} (p : List Ch → Option (α × List Ch)) (d : α) (s : List Ch) (as : List (Option (List α))) :
    Option (List (Option (List α))) :=
  (deref s).bind fun c =>
  if c = 0 ∨ as.length = 0 then some (as.map (·.map (resizeTo d · 0)))
  else match as.head? with
    | some (some l0) =>
      (interOld p l0.length 0 as s).bind fun r =>
      (interPush p (r.2.2.length + 1) r.2.1 r.1 r.2.2).map fun q => q.1.map (·.map (resizeTo d · q.2))
    | _ => none

/-! ## date-times -/

/-- FUDateTime.h 29-36. -/
structure DateTime where
  year : Nat
  month : Nat
  day : Nat
  hour : Nat
  minutes : Nat
  seconds : Nat
deriving DecidableEq, Repr

/-- `printf("%0wu", n)`. -/
def padded (w n : Nat) : List Ch := List.replicate (w - (FBld.decimal n).length) 48 ++ FBld.decimal n

/-- FUStringConversion.cpp 77-84: `ToString(const FUDateTime&)`: at most 20 characters are kept. -/
def dateText (d : DateTime) : List Ch :=
  (padded 4 d.year ++ [45] ++ padded 2 d.month ++ [45] ++ padded 2 d.day ++ [84] ++ padded 2 d.hour ++ [58] ++ padded 2 d.minutes ++
    [58] ++ padded 2 d.seconds ++ [90]).take 20

/-- `ToUInt32(value)` without the cursor. -/
def uintAt (s : List Ch) : Option Nat := (toUInt32 s).map Prod.fst

/-- FUStringConversion.hpp 194-211: `ToDateTime`; texts of another length leave the date-time as it was. -/
def toDateTime (s : List Ch) (old : DateTime) : Option DateTime :=
  (FStr.strlen s).bind fun n =>
  if n = 20 then
    (uintAt s).bind fun y => (uintAt (s.drop 5)).bind fun mo => (uintAt (s.drop 8)).bind fun d => (uintAt (s.drop 11)).bind fun h =>
    (uintAt (s.drop 14)).bind fun mi => (uintAt (s.drop 17)).map fun sec => ⟨y, mo, d, h, mi, sec⟩
  else some old

/-! ## lists of names -/

/-- FUStringConversion.cpp 136-148: the loop of `ToStringList` (and of `ToFStringList`, 111-125): `done` are the elements read, `todo`
the old ones; a word is appended to the old element at its index. -/
def nameLoop : Nat → List (List Ch) → List (List Ch) → List Ch → Option (List (List Ch))
  | 0, _, _, _ => none
  | fuel + 1, done, todo, s => (deref s).bind fun c =>
    if c = 0 then some done
    else (skipWhile (fun c => !blank c) s).bind fun e => (skipWhile blank e).bind fun s2 =>
      let word := s.take (s.length - e.length)
      match todo with
      | [] => nameLoop fuel (done ++ [word]) [] s2
      | o :: todo => nameLoop fuel (done ++ [o ++ word]) todo s2

/-- FUStringConversion.cpp 129-150: `ToStringList`. -/
def toStringList (s : List Ch) (array : List (List Ch)) : Option (List (List Ch)) :=
  (skipWhile blank s).bind fun s1 => nameLoop s1.length [] array s1

/-! ## targets -/

/-- FUStringConversion.cpp 210-223: `SplitTarget`: pointer and qualifier; `buf` is the target text `t` and its terminator. -/
def splitTarget (t : List Ch) : Option (List Ch × List Ch) :=
  (FStr.findFirstOf (t ++ [0]) [40, 91, 46] 0).map fun i =>
    if i ≠ FStr.npos then (t.take i, t.drop i) else (t, [])

/-- FUStringConversion.cpp 229-239: the loop of `ParseQualifier`. -/
def qualLoop (ov : Ov) : Nat → List Ch → Option Int
  | 0, _ => none
  | fuel + 1, s => (deref s).bind fun c =>
    if c = 40 ∨ c = 91 then
      (skipWhile digit (s.drop 1)).bind fun e => (deref e).bind fun d =>
        if d = 41 ∨ d = 93 then (toInt32 ov (s.drop 1)).map Prod.fst else qualLoop ov fuel e
    else some (-1)

/-- FUStringConversion.cpp 225-241: `ParseQualifier`. -/
def parseQualifier (ov : Ov) (s : List Ch) : Option Int := qualLoop ov s.length s

end Verif.FConv
