import Verif.Pack
import Verif.UnifySpec

/-!
# Specification of vertex packing (C73)
-/

namespace Verif.FPack

open Verif.FUnify (TMap)

/-- The number of different indices in a list. -/
def distinct (l : List Nat) : Nat := l.eraseDups.length

/-- The packed number of an index: its position among the different indices in the order of their first appearance. -/
def number (l : List Nat) (v : Nat) : Nat := l.eraseDups.idxOf v

/-- The translation map relates the old index `o` with the new index `v`. -/
def Relates (m : TMap) (o v : Nat) : Prop := ∃ l, (o, l) ∈ m ∧ v ∈ l

end Verif.FPack
