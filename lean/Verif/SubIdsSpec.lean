import Verif.SubIds
import Verif.UniqueSpec

/-! # What the sub-ids of instances should be -/

namespace Verif.FSub

open Verif.FStr (Ch)

/-- The sub-ids in a scope that are not empty. -/
def Insts.names : Insts → List (List Ch)
  | .nil => []
  | .cons s _ rest => if s = [] then rest.names else s :: rest.names

/-- The scopes inside of a scope have a property. -/
def Insts.Inside (P : List (List Ch) → Prop) : Insts → Prop
  | .nil => True
  | .cons _ own rest => P own.names ∧ own.Inside P ∧ rest.Inside P

/-- A scope and all scopes inside of it have a property. -/
def Insts.Each (P : List (List Ch) → Prop) (is : Insts) : Prop := P is.names ∧ is.Inside P

/-- All scopes of all nodes have a property. -/
def Nodes.Each (P : List (List Ch) → Prop) : Nodes → Prop
  | .nil => True
  | .cons is children rest => is.Each P ∧ children.Each P ∧ rest.Each P

/-- The same instances, up to the number at the end of their sub-ids; empty sub-ids are the same. -/
def Insts.Like : Insts → Insts → Prop
  | .nil, .nil => True
  | .cons s own rest, .cons s' own' rest' => FUniq.base s' = FUniq.base s ∧ (s = [] ↔ s' = []) ∧ own.Like own' ∧ rest.Like rest'
  | _, _ => False

/-- The same nodes, with such instances. -/
def Nodes.Like : Nodes → Nodes → Prop
  | .nil, .nil => True
  | .cons is children rest, .cons is' children' rest' => is.Like is' ∧ children.Like children' ∧ rest.Like rest'
  | _, _ => False

/-- No name ends in the number 4294967294. -/
def Small (names : List (List Ch)) : Prop := ∀ y ∈ names, FUniq.number y ≠ 2 ^ 32 - 2

/-- All names have different bases or numbers. -/
def Distinct (names : List (List Ch)) : Prop := (names.map FUniq.key).Nodup

end Verif.FSub
