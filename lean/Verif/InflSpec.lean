import Verif.Infl

/-! # Which influences the packed vertices should get -/

namespace Verif.FInfl

/-- The old vertex `i` is at the packed place `p`. -/
def At (map : Nat → Option (List Nat)) (packing : List Nat) (i p : Nat) : Prop := ∃ us u, map i = some us ∧ u ∈ us ∧ packing[u]? = some p ∧ p ≠ unused

/-- The map has all vertices with influences, and the packing all new vertices. -/
def Complete (n : Nat) (map : Nat → Option (List Nat)) (packing : List Nat) : Prop := ∀ i < n, ∃ us, map i = some us ∧ ∀ u ∈ us, u < packing.length

end Verif.FInfl
