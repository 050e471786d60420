import Mathlib.Data.Rat.Defs
import Mathlib.Algebra.Order.Field.Rat
import Mathlib.Tactic.FieldSimp
import Mathlib.Tactic.Linarith
import Verif.Ent

/-! # Terms used in the properties in EntProps -/

namespace Verif.FEnt

open Verif.FEff (Text text)

variable {D E C L K : Type}

section assets

end assets

section entities

end entities

section targets

/-- The operation is one a program may do: new objects are new, the others live, a target is a live node. -/
def Legal (s : Targets) : TOp → Prop
  | .newNode n => s.count n = none
  | .newEntity e => s.target e = none
  | .setTarget e n => s.target e ≠ none ∧ ∀ m, n = some m → s.count m ≠ none
  | .clone e e' => s.target e ≠ none ∧ s.target e' = none
  | .releaseNode n => s.count n ≠ none
  | .releaseEntity e => s.target e ≠ none

/-- Whether an operation releases no entity. -/
def Keep : TOp → Prop
  | .releaseEntity _ => False
  | _ => True

/-- The states that legal operations with `P` lead to. -/
inductive TReach (P : TOp → Prop) : Targets → Prop
  | init : TReach P ⟨fun _ => none, fun _ => none⟩
  | step {s : Targets} (o : TOp) : TReach P s → Legal s o → P o → TReach P (tstep s o)

/-- How many entities of the list have the node as their target. -/
def aimed (s : Targets) (l : List Nat) (n : Nat) : Nat := l.countP fun e => decide (s.target e = some (some n))

end targets

section camera

variable [Field K] [LinearOrder K]

end camera

end Verif.FEnt
