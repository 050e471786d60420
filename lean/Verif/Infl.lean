/-!
# Model of the mapping of skin influences to packed vertices (FCDocument/FCDControllerTools.cpp)

The influences of a skin are given by their indices; `none` in the resulting array is a pointer that is not set. `none` as the result of a function is undefined behaviour. Indices are natural numbers.
-/

namespace Verif.FInfl

/-- The mark of vertices that are not packed: `(uint16) -1`. -/
def unused : Nat := 65535

/-- FCDControllerTools.cpp 36-43: the largest packed index. -/
def largest (packing : List Nat) : Nat := packing.foldl (fun l p => if p > l ∧ p ≠ unused then p else l) 0

/-- FCDControllerTools.cpp 46 and FMArray.h 258-275: the array is resized; new pointers are not set. -/
def resized (n : Nat) (old : List (Option Nat)) : List (Option Nat) := old.take n ++ List.replicate (n - old.length) none

/-- FCDControllerTools.cpp 55-58: one of the new vertices of an old vertex. A read or write outside of an array is undefined. -/
def place (packing : List Nat) (i : Nat) (slots : List (Option Nat)) (u : Nat) : Option (List (Option Nat)) :=
  match packing[u]? with
  | none => none
  | some p => if p ≠ unused then (if p < slots.length then some (slots.set p (some i)) else none) else some slots

/-- FCDControllerTools.cpp 52-60: the new vertices of an old vertex. The map is constant, so that a vertex that is not in it is read behind the end of the map (FMTree.h 496). -/
def placeAll (map : Nat → Option (List Nat)) (packing : List Nat) (slots : List (Option Nat)) (i : Nat) : Option (List (Option Nat)) :=
  match map i with
  | none => none
  | some us => us.foldlM (place packing i) slots

/-- FCDControllerTools.cpp 23-60: `ApplyTranslationMap` for a skin with `n` influences. The assertion of line 47 has no effect on the result. -/
def apply (n : Nat) (map : Nat → Option (List Nat)) (packing : List Nat) (old : List (Option Nat)) : Option (List (Option Nat)) := (List.range n).foldlM (placeAll map packing) (resized (largest packing + 1) old)

end Verif.FInfl
