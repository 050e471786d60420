import Verif.Tree

/-! Specification vocabulary for the shape of a tree (property C02). -/

namespace Verif.FTree

variable {K V : Type}

/-- Depth of a subtree. -/
def Tree.height : Tree K V → Nat
  | .nil => 0
  | .node l _ _ _ r => max l.height r.height + 1

/-- Every recorded balance factor is the real depth difference and is -1, 0 or 1. -/
def Tree.Bal : Tree K V → Prop
  | .nil => True
  | .node l _ _ w r => l.Bal ∧ r.Bal ∧ w = (r.height : Int) - l.height ∧ -1 ≤ w ∧ w ≤ 1

end Verif.FTree
