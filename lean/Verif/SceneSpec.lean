import Verif.Scene
import Mathlib.Logic.Relation

/-! # Uses of the scene graph -/

namespace Verif.FScene

/-- `y` is in the list of children of `x`. -/
def Child (w : World) (x y : Nat) : Prop := ∃ a, w.nodes x = some a ∧ y ∈ a.children

/-- `x` is in the list of parents of `y`. -/
def Parent (w : World) (x y : Nat) : Prop := ∃ b, w.nodes y = some b ∧ x ∈ b.parents

/-- `y` is a proper ancestor of `x`. -/
def Ancestor (w : World) (y x : Nat) : Prop := Relation.TransGen (Child w) y x

/-- `y` is `x` or a descendant of `x`. -/
def Desc (w : World) (x y : Nat) : Prop := Relation.ReflTransGen (Child w) x y

/-- The operations of a program. -/
inductive Op where
  | create (x : Nat)
  | add (x : Nat) (y : Option Nat)
  | remove (x y : Nat)
  | release (x : Nat)

/-- An operation, with at most `n` nested steps. -/
def run (n : Nat) (w : World) : Op → Option World
  | .create x => create w x
  | .add x y => (addChild n w x y).map Prod.snd
  | .remove x y => removeChild w x y
  | .release x => release n w x

/-- The calls are on live nodes, with live nodes as arguments. -/
def Legal (w : World) : Op → Prop
  | .create x => w.nodes x = none ∧ x ∉ w.freed
  | .add x y => (w.nodes x).isSome ∧ ∀ z, y = some z → (w.nodes z).isSome
  | .remove x y => (w.nodes x).isSome ∧ (w.nodes y).isSome
  | .release x => (w.nodes x).isSome

/-- The operation ends, and gives `w'`. -/
def Steps (w : World) (op : Op) (w' : World) : Prop := ∃ N, ∀ n ≥ N, run n w op = some w'

/-- The scene graphs a program can build. -/
inductive Reach : World → Prop where
  | start : Reach ⟨fun _ => none, []⟩
  | step {w op w'} : Reach w → Legal w op → Steps w op w' → Reach w'

/-- `w'` is `w` after the nodes `S` have been deleted, and nothing else: the nodes were alive, each of them is deleted once, and the lists of the
other nodes have lost exactly the deleted nodes. -/
structure Gone (w : World) (S : Nat → Prop) (w' : World) : Prop where
  alive : ∀ z, S z → (w.nodes z).isSome
  dead : ∀ z, S z → w'.nodes z = none
  kept : ∀ z, ¬ S z → ∀ [DecidablePred S],
    w'.nodes z = (w.nodes z).map fun v => ⟨v.parents.filter (fun y => ¬ S y), v.children.filter (fun y => ¬ S y)⟩
  freed : ∃ l, w'.freed = w.freed ++ l ∧ l.Nodup ∧ ∀ z, z ∈ l ↔ S z

end Verif.FScene
