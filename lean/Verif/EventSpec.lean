import Verif.Event
import Mathlib.Data.List.Induction

/-! # Terms used in the properties in EventProps -/

namespace Verif.FEvent

variable {F : Type}

/-- The operations on an event. -/
inductive Op (F : Type) where
  | insert (object : Nat) (f : F)
  | release (object : Nat)

/-- Run a history. -/
def exec (h : List (Slot F)) : List (Op F) → Option (List (Slot F))
  | [] => some h
  | .insert o f :: ops => exec (insertHandler h o f) ops
  | .release o :: ops => (releaseHandler h o).bind fun h => exec h ops

/-- Whether an operation releases an object's handlers. -/
def Op.releases (o : Nat) : Op F → Bool
  | .insert _ _ => false
  | .release o' => o' = o

/-- Specification: the registrations without a later release of their object, in the order they were made. -/
def active : List (Op F) → List (Nat × F)
  | [] => []
  | .insert o f :: ops => if ops.any (Op.releases o) then active ops else (o, f) :: active ops
  | .release _ :: ops => active ops

/-- An object's handlers are only released while it has exactly one. -/
def Proper (ops : List (Op F)) : Prop :=
  ∀ a o b, ops = a ++ .release o :: b → ((active a).filter fun r => r.1 = o).length = 1

/-- The operations on the error reporting. -/
inductive EOp (F : Type) where
  | add (l : Level) (object : Nat) (f : F)
  | remove (l : Level) (object : Nat)
  | fatal (l : Level)

/-- Run a history of operations. -/
def execE (e : Errors F) : List (EOp F) → Option (Errors F)
  | [] => some e
  | .add l o f :: ops => execE (e.add l o f) ops
  | .remove l o :: ops => (e.remove l o).bind fun e => execE e ops
  | .fatal l :: ops => execE (e.setFatal l) ops

/-- Specification: the operations on the callbacks of one level. -/
def atLevel (l : Level) : List (EOp F) → List (Op F)
  | [] => []
  | .add l' o f :: ops => if l' = l then .insert o f :: atLevel l ops else atLevel l ops
  | .remove l' o :: ops => if l' = l then .release o :: atLevel l ops else atLevel l ops
  | .fatal _ :: ops => atLevel l ops

/-- Whether an operation sets the fatality level. -/
def EOp.isFatal : EOp F → Bool
  | .fatal _ => true
  | _ => false

/-- Specification: the fatality level set last. -/
def lastFatal : List (EOp F) → Level
  | [] => .error
  | .fatal l :: ops => if ops.any EOp.isFatal then lastFatal ops else l
  | .add _ _ _ :: ops => lastFatal ops
  | .remove _ _ :: ops => lastFatal ops

end Verif.FEvent
