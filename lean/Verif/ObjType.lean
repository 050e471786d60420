import Mathlib.Data.List.Basic

/-!
# Model of the run-time class types (FUtils/FUObjectType.h, FUObjectType.cpp)

Type objects are numbered so that the type object of a class comes after that of its parent class; equality compares addresses, that is,
numbers.
-/

namespace Verif.FType

/-- The parents of all type objects (FUObjectType.h 33); `none` is NULL. -/
abbrev Types := List (Option Nat)

/-- FUObjectType.cpp 12-16: a type object without parent. -/
def newRoot (ts : Types) : Types := ts ++ [none]

/-- FUObjectType.cpp 18-22 and FUObjectType.h 88: a type object whose parent is an existing type object. -/
def newType (ts : Types) (parent : Nat) : Option Types := if parent < ts.length then some (ts ++ [some parent]) else none

/-- FUObjectType.cpp 24-29: `Includes`. The recursion goes to smaller numbers; `none`: there is no such type object. -/
def includes (ts : Types) (t other : Nat) : Option Bool :=
  match ts[t]? with
  | none => none
  | some parent =>
    if other = t then some true
    else
      match parent with
      | none => some false
      | some p => if p < t then includes ts p other else none
termination_by t

/-- FUObjectType.h 55: `GetParent`. -/
def getParent (ts : Types) (t : Nat) : Option Nat := (ts[t]?).map fun p => p.getD t

end Verif.FType
