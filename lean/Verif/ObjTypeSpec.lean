import Verif.ObjType
import Mathlib.Logic.Relation
import Mathlib.Tactic.Common

/-! # Terms used in the properties in ObjTypeProps -/

namespace Verif.FType

open Relation

/-- The tables of type objects that can be built: every parent exists before its children. -/
inductive Built : Types → Prop
  | nil : Built []
  | root {ts} : Built ts → Built (newRoot ts)
  | sub {ts ts'} (p : Nat) : Built ts → newType ts p = some ts' → Built ts'

/-- Specification: `p` is the parent class of `t`. -/
def IsParent (ts : Types) (t p : Nat) : Prop := ts[t]? = some (some p)

end Verif.FType
