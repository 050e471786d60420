import Verif.ArcPtr

/-!
# What the address of an element means

Places are compared with addresses as lists of names: the id of an element, and the sub ids on the way down from it.
-/

namespace Verif.FArc

open Verif.FEff (Text text)

/-- The element at a place. -/
def nodeAt (n : Node) : List Nat → Option Node
  | [] => some n
  | i :: p => n.kids[i]?.bind fun k => nodeAt k p

/-- The element at `p` has an id, `i`. -/
def IdAt (root : Node) (p : List Nat) (i : Text) : Prop := ∃ n, nodeAt root p = some n ∧ n.has (text "id") = true ∧ prop (some n) (text "id") = some i ∧ i ≠ []

/-- The element at `p` has no id, and the sub id `s`, if not empty. -/
def SidAt (root : Node) (p : List Nat) (s : Text) : Prop := ∃ n, nodeAt root p = some n ∧ n.has (text "id") = false ∧ prop (some n) (text "sid") = some s

/-- From `p` one comes to the element at `q`, below, with the sub id `s`, through elements without names only. -/
def Below (root : Node) (p q : List Nat) (s : Text) : Prop :=
  ∃ w, w ≠ [] ∧ q = p ++ w ∧ SidAt root q s ∧ s ≠ [] ∧ ∀ v, v ≠ [] → v <+: w → v ≠ w → SidAt root (p ++ v) []

/-- The element at a place has these names: an id and sub ids. -/
inductive Named (root : Node) : List Nat → List Text → Prop
  | id {p i} : IdAt root p i → Named root p [i]
  | sid {p q cs s} : Named root p cs → Below root p q s → Named root q (cs ++ [s])

/-- The names separated by slashes. -/
def pathText : List Text → Text
  | [] => []
  | [c] => c
  | c :: cs => c ++ 47 :: pathText cs

/-- No name is used twice: ids in the file, and sub ids below an element. -/
def NamesDiffer (root : Node) : Prop :=
  (∀ p q i, IdAt root p i → IdAt root q i → p = q) ∧ ∀ p q r s, Below root p q s → Below root p r s → q = r

/-- No name has a slash. -/
def NoSlash (root : Node) : Prop :=
  (∀ p i, IdAt root p i → (47 : Int) ∉ i) ∧ ∀ p s, SidAt root p s → (47 : Int) ∉ s

end Verif.FArc
