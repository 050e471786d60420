import Verif.Tree
import Verif.Conv
import Mathlib.Data.List.Lex
import Mathlib.Data.Int.Order.Basic

/-!
# Model of `FUUniqueStringMap` (FUtils/FUUniqueStringMap.cpp)

The two levels of `fm::map` are the model of Tree.lean. Strings are their texts (the string model is tied to texts by C08), ordered
lexicographically (C56); `uint32` is a natural number below 2^32. `none` is undefined behaviour.
-/

namespace Verif.FUniq

open Verif.FStr (Ch)
open Verif.FTree (Pos)

/-- FUUniqueStringMap.cpp 17-23: the digits are erased from the end of `prefix`, one by one. -/
def stripLoop : Nat → List Ch → List Ch
  | 0, p => p
  | len + 1, p => if (p[len]?.map FConv.digit).getD false then stripLoop len (p.take len) else p

/-- FUUniqueStringMap.cpp 13-29: `SplitString`: prefix and suffix, `~0` when there is no suffix. -/
def split (s : List Ch) : Option (List Ch × Nat) :=
  let p := stripLoop s.length s
  if p.length = s.length then some (p, 2 ^ 32 - 1)
  else (FConv.toUInt32 (s.drop p.length ++ [0])).map fun r => (p, r.1)

/-- FUUniqueStringMap.h 28: `NumberMap`. -/
abbrev Numbers := FTree.Map Nat Nat

/-- FUUniqueStringMap.h 29-31: the member `values`. -/
abbrev Names := FTree.Map (List Ch) Numbers

/-- FMTree.h 35, 365-369, 254: `it->first`; the sentinel's key is value-initialised to 0. -/
def posKey : Pos Nat Nat → Nat
  | .endPos => 0
  | .at _ k _ _ _ _ => k

/-- FUUniqueStringMap.cpp 47-56: the suffix taken when the wanted one is in use. -/
def freshSuffix (nm : Numbers) : Option Nat :=
  (FTree.last nm.t).bind fun it =>
  if posKey it ≠ 2 ^ 32 - 1 then some ((posKey it + 1) % 2 ^ 32)
  -- line 54 assigns 2 when `it` is at the end, line 55 then overwrites it
  else (FTree.prev it).map fun it => (posKey it + 1) % 2 ^ 32

/-- FUUniqueStringMap.cpp 37-42: the numbers known for a prefix, after adding the prefix if it is new. `insert` stores a copy of an
empty map. -/
def numbersOf (m : Names) (p : List Ch) : Option (Names × Numbers) :=
  match FTree.find p m.t with
  | some (_, nm) => some (m, nm)
  | none => (m.insert p FTree.Map.empty).map fun m' => (m', FTree.Map.empty)

/-- FUUniqueStringMap.cpp 31-66: `insert`: the new state and the name written back. The numbers are changed in place through `itV`,
modelled by storing them again under the prefix. -/
def insert (m : Names) (wanted : List Ch) : Option (Names × List Ch) :=
  (split wanted).bind fun (p, n) =>
  (numbersOf m p).bind fun (m1, nm) =>
  match FTree.find n nm.t with
  | none => (nm.insert n n).bind fun nm' => (m1.insert p nm').map fun m2 => (m2, wanted)
  | some _ => (freshSuffix nm).bind fun n' =>
    (nm.insert n' n').bind fun nm' => (m1.insert p nm').map fun m2 => (m2, p ++ FBld.decimal n')

/-- FUUniqueStringMap.cpp 68-77: `contains`. -/
def contains (m : Names) (s : List Ch) : Option Bool :=
  (split s).map fun (p, n) =>
  match FTree.find p m.t with
  | none => false
  | some (_, nm) => (FTree.find n nm.t).isSome

/-- FUUniqueStringMap.cpp 79-90: `erase`. -/
def erase (m : Names) (s : List Ch) : Option Names :=
  (split s).bind fun (p, n) =>
  match FTree.find p m.t with
  | none => some m
  | some (_, nm) => (nm.erase n).bind fun nm' => m.insert p nm'

end Verif.FUniq
