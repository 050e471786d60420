import Mathlib.Algebra.Field.Defs
import Mathlib.Order.Defs.LinearOrder

/-!
# Model of the reduction of skin influences (FCDocument/FCDSkinController.cpp 142-188)

Weights are elements of an ordered field: floating-point rounding is left out. `none` is a division by zero, after which the weights are not numbers.
-/

namespace Verif.Skin

variable {K : Type} [Field K] [LinearOrder K]

/-- FCDSkinController.h 41-59: a joint index and a weight. -/
structure Pair (K : Type) where
  joint : Int
  weight : K
deriving DecidableEq

/-- FCDSkinController.cpp 162-168: the walk to the place of a pair, and its insertion there, unless the place is the end of a list with more than
`max` pairs; if there are too many, the last one is dropped. -/
def insertPair (max : Nat) (p : Pair K) (l : List (Pair K)) : List (Pair K) :=
  let before := l.takeWhile fun q => decide (p.weight < q.weight)
  let after := l.dropWhile fun q => decide (p.weight < q.weight)
  if after ≠ [] ∨ l.length ≤ max then
    if (before ++ p :: after).length > max then (before ++ p :: after).dropLast else before ++ p :: after
  else l

/-- FCDSkinController.cpp 157-171, without the total: the loop over the pairs of a vertex. -/
def reduceLoop (max : Nat) (min : K) : List (Pair K) → List (Pair K) → List (Pair K)
  | [], l => l
  | p :: ps, l => if min ≤ p.weight then reduceLoop max min ps (insertPair max p l) else reduceLoop max min ps l

/-- FCDSkinController.cpp 155, 170, 180-181: the total of some weights. -/
def total (l : List (Pair K)) : K := l.foldl (fun t p => t + p.weight) 0

/-- FCDSkinController.cpp 150-184: one vertex. -/
def reduceVertex (max : Nat) (min : K) (ps : List (Pair K)) : Option (List (Pair K)) :=
  let l := reduceLoop max min ps []
  if ps.length > l.length then
    if l = [] then some []
    else if total l = 0 then none
    else some (l.map fun p => { p with weight := p.weight * (total ps / total l) })
  else some ps

/-- FCDSkinController.cpp 142-188: `ReduceInfluences`. -/
def reduceInfluences (max : Nat) (min : K) (vertices : List (List (Pair K))) : Option (List (List (Pair K))) := vertices.mapM (reduceVertex max min)

end Verif.Skin
