import Verif.TreeIter

/-! # Terms used in the properties in TreeProps -/

namespace Verif.FTree

variable {K V : Type} [LinearOrder K]

/-- The operations of the map interface (FMath/FMTree.h). `put k d v` is `m[k] = v` where `d` is `DATA()`. -/
inductive Op (K V : Type) where
  | insert (k : K) (v : V)
  | erase (k : K)
  | put (k : K) (d v : V)
  | clear

/-- The operations run by the model. -/
def step (m : Map K V) : Op K V → Option (Map K V)
  | .insert k v => m.insert k v
  | .erase k => m.erase k
  | .put k d v => m.indexAssign k d v
  | .clear => m.clear

/-- A history run from the empty map; `none` is undefined behaviour. -/
def runFrom (m : Map K V) : List (Op K V) → Option (Map K V)
  | [] => some m
  | op :: ops => (step m op).bind fun m' => runFrom m' ops

def run (ops : List (Op K V)) : Option (Map K V) := runFrom Map.empty ops

/-- Specification: what a history means for a partial function from keys to values. -/
def specStep (f : K → Option V) : Op K V → (K → Option V)
  | .insert k v => fun x => if x = k then some v else f x
  | .erase k => fun x => if x = k then none else f x
  | .put k _ v => fun x => if x = k then some v else f x
  | .clear => fun _ => none

def spec (ops : List (Op K V)) : K → Option V := ops.foldl specStep (fun _ => none)

end Verif.FTree
