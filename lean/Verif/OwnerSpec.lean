import Verif.Owner
import Mathlib.Logic.Relation
import Mathlib.Tactic.Common

/-! # Uses of the ownership classes -/

namespace Verif.FOwn

/-- The objects of an owner. -/
def Content.items : Content → List Nat
  | .ref p => p.toList
  | .list l => l

/-- The owner `c` lists the object `x`. -/
def Lists (w : World) (c x : Nat) : Prop := ∃ v, w.cons c = some v ∧ x ∈ v.items

/-- The owner `c` is a member of the object `y`. -/
def Member (w : World) (y c : Nat) : Prop := ∃ o, w.objs y = some o ∧ c ∈ o.members

/-- The object `y` owns the object `x` directly. -/
def Owns (w : World) (y x : Nat) : Prop := ∃ c, Member w y c ∧ Lists w c x

/-- The object `x` and the objects it owns, directly or not. -/
def Desc (w : World) (x : Nat) : Nat → Prop := Relation.ReflTransGen (Owns w) x

/-- The operations of a program. -/
inductive Op where
  | create (x : Nat) (kinds : List (Nat × Bool))
  | newOwner (c : Nat) (isList : Bool)
  | deleteOwner (c : Nat)
  | pushBack (c x : Nat)
  | insert (c k x : Nat)
  | eraseAt (c k : Nat)
  | popBack (c : Nat)
  | popFront (c : Nat)
  | erase (c x : Nat)
  | clear (c : Nat)
  | detach (c x : Nat)
  | assign (c : Nat) (p : Option Nat)
  | release (x : Nat)

/-- An operation, with at most `n` nested steps. -/
def run (n : Nat) (w : World) : Op → Option World
  | .create x kinds => create w x kinds
  | .newOwner c b => newOwner w c b
  | .deleteOwner c => deleteOwner n w c
  | .pushBack c x => pushBack w c x
  | .insert c k x => insert w c k x
  | .eraseAt c k => eraseAt n w c k
  | .popBack c => popBack n w c
  | .popFront c => popFront n w c
  | .erase c x => erase n w c x
  | .clear c => (getList w c).bind fun _ => clear n w c
  | .detach c x => detachFrom w c x
  | .assign c p => assign n w c p
  | .release x => release n w x

/-- The object `x` may be given to the owner `c`: it is alive, it has no owner, and `c` is not a part of it. -/
def MayOwn (w : World) (c x : Nat) : Prop :=
  (∃ o, w.objs x = some o ∧ o.owner = none) ∧ ∀ y, Desc w x y → ¬ Member w y c

/-- `c` is a live container. -/
def IsList (w : World) (c : Nat) : Prop := ∃ l, w.cons c = some (.list l)

/-- `c` is a live reference. -/
def IsRef (w : World) (c : Nat) : Prop := ∃ p, w.cons c = some (.ref p)

/-- The uses that the comments of FUObject.h allow. -/
def Legal (w : World) : Op → Prop
  | .create x kinds => w.objs x = none ∧ x ∉ w.freed ∧ (∀ k ∈ kinds, w.cons k.1 = none) ∧ (kinds.map Prod.fst).Nodup
  | .newOwner c _ => w.cons c = none
  | .deleteOwner c => (w.cons c).isSome ∧ ∀ y, ¬ Member w y c
  | .pushBack c x => IsList w c ∧ MayOwn w c x
  | .insert c k x => (∃ l, w.cons c = some (.list l) ∧ k ≤ l.length) ∧ MayOwn w c x
  | .eraseAt c k => ∃ l, w.cons c = some (.list l) ∧ k < l.length
  | .popBack c => IsList w c
  | .popFront c => IsList w c
  | .erase c _ => IsList w c
  | .clear c => IsList w c
  | .detach c _ => IsList w c
  | .assign c p => IsRef w c ∧ ∀ x, p = some x → MayOwn w c x
  | .release x => (w.objs x).isSome

/-- The operation ends, and gives `w'`. -/
def Steps (w : World) (op : Op) (w' : World) : Prop := ∃ N, ∀ n ≥ N, run n w op = some w'

/-- The worlds a program can reach from nothing. -/
inductive Reach : World → Prop where
  | start : Reach ⟨fun _ => none, fun _ => none, []⟩
  | step {w op w'} : Reach w → Legal w op → Steps w op w' → Reach w'

/-- An owner without the objects of a set; the others stay in order. -/
def Content.without (S : Nat → Prop) [DecidablePred S] : Content → Content
  | .ref p => .ref (p.filter fun x => ¬ S x)
  | .list l => .list (l.filter fun x => ¬ S x)

/-- `w'` is `w` after the objects `S` and the owners `K` have been deleted, and nothing else: the objects were alive, each of them is deleted
once, the other objects are as before, and the other owners have lost exactly the deleted objects. -/
structure Gone (w : World) (S K : Nat → Prop) (w' : World) : Prop where
  alive : ∀ z, S z → (w.objs z).isSome
  objs : ∀ z, (S z → w'.objs z = none) ∧ (¬ S z → w'.objs z = w.objs z)
  gone : ∀ c, K c → w'.cons c = none
  kept : ∀ c, ¬ K c → ∀ [DecidablePred S], w'.cons c = (w.cons c).map (Content.without S)
  freed : ∃ l, w'.freed = w.freed ++ l ∧ l.Nodup ∧ ∀ z, z ∈ l ↔ S z

/-- The owners that are members of some objects. -/
def Parts (w : World) (S : Nat → Prop) (c : Nat) : Prop := ∃ y, S y ∧ Member w y c

/-- The objects that an owner lists and what they own. -/
def Below (w : World) (c z : Nat) : Prop := ∃ x, Lists w c x ∧ Desc w x z

/-- `w'` is `w` with the object `x`, that had no owner, given to the owner `c`. -/
structure Linked (w : World) (c x : Nat) (w' : World) : Prop where
  self : ∃ o, w.objs x = some o ∧ o.owner = none ∧ w'.objs x = some { o with owner := some c }
  objs : ∀ z, z ≠ x → w'.objs z = w.objs z
  at_c : ∃ v v', w.cons c = some v ∧ w'.cons c = some v' ∧ v'.items.Perm (x :: v.items)
  cons : ∀ d, d ≠ c → w'.cons d = w.cons d
  freed : w'.freed = w.freed

end Verif.FOwn
