import Verif.AnimList

/-! # What a list with animation helpers should do

Each element of the ideal list is a value together with its helper, if it has one. All changes of the list move the elements; helpers go with them. -/

namespace Verif.FAnimList

variable {α : Type}

/-- A value with the identity of its helper. -/
abbrev Cell (α : Type) := α × Option Nat

/-- A value without helper. -/
def bare (x : α) : Cell α := (x, none)

/-- The calls on the ideal list; `next` is the identity of the next helper. -/
def ideal (next : Nat) (a : List (Cell α)) : Op α → List (Cell α)
  | .get i => match a[i]? with
    | some (x, none) => a.set i (x, some next)
    | _ => a
  | .release id => a.map fun c => if c.2 = some id then (c.1, none) else c
  | .set i x => match a[i]? with
    | some c => a.set i (x, c.2)
    | none => a
  | .insert i x => a.take i ++ bare x :: a.drop i
  | .insertCopies i count x => a.take i ++ (List.replicate count (bare x) ++ a.drop i)
  | .insertArray i xs => a.take i ++ (xs.map bare ++ a.drop i)
  | .erase i => a.take i ++ a.drop (i + 1)
  | .eraseRange first last => a.take first ++ a.drop last
  | .clear => []
  | .pushBack x => a ++ [bare x]
  | .pushFront x => bare x :: a
  | .popBack => a.dropLast
  | .popFront => a.tail
  | .resize count x => a.take count ++ List.replicate (count - a.length) (bare x)
  | .resizeWith count x => a.take count ++ List.replicate (count - a.length) (bare x)

/-- The helpers of the ideal list in order, with their indices counted from `k`. -/
def listed (k : Nat) : List (Cell α) → List (Int × Nat)
  | [] => []
  | (_, none) :: a => listed (k + 1) a
  | (_, some id) :: a => ((k : Int), id) :: listed (k + 1) a

/-- The state represents the ideal list: it has its values, and its helpers with the array elements of their values. -/
structure Rep (s : State α) (a : List (Cell α)) : Prop where
  values : s.values = a.map Prod.fst
  helpers : (s.helpers.map fun h => (h.elem, h.id)) = listed 0 a
  size : a.length < 2 ^ 31

/-- The helpers point at the values they belong to. -/
def Pointed (s : State α) : Prop := ∀ h ∈ s.helpers, h.ptr = (s.block, h.elem.toNat)

/-- The indices of a call are in range, and the list stays below 2^31 values. -/
def Legal (n : Nat) : Op α → Prop
  | .get i => i < n
  | .release _ => True
  | .set i _ => i < n
  | .insert i _ => i ≤ n ∧ n + 1 < 2 ^ 31
  | .insertCopies i count _ => i ≤ n ∧ n + count < 2 ^ 31
  | .insertArray i xs => i ≤ n ∧ n + xs.length < 2 ^ 31
  | .erase i => i < n
  | .eraseRange first last => first ≤ last ∧ last ≤ n
  | .clear => True
  | .pushBack _ => n + 1 < 2 ^ 31
  | .pushFront _ => n + 1 < 2 ^ 31
  | .popBack => 0 < n
  | .popFront => 0 < n
  | .resize count _ => count < 2 ^ 31
  | .resizeWith count _ => count < 2 ^ 31

/-- All calls but the one that is broken: shrinking with `resize(count, value)`. -/
def NoShrink (n : Nat) : Op α → Prop
  | .resizeWith count _ => n ≤ count
  | _ => True

/-- Changes in the middle of the list, between helpers. -/
def Between (a : List (Cell α)) (first last : Nat) : Prop := (∃ c ∈ a.take first, c.2.isSome) ∧ ∃ c ∈ a.drop last, c.2.isSome

/-- The calls that keep the pointers right: all but insertions and removals between helpers, unless the values get a new buffer. -/
def Tame (s : State α) (a : List (Cell α)) : Op α → Prop
  | .insert i _ => ¬ Between a i i ∨ s.values.length = s.cap
  | .insertCopies i count _ => ¬ Between a i i ∨ count = 0 ∨ s.values.length + count > s.cap
  | .insertArray i xs => ¬ Between a i i ∨ xs = [] ∨ s.values.length + xs.length > s.cap
  | .erase i => ¬ Between a i (i + 1)
  | .eraseRange first last => ¬ Between a first last ∨ first = last
  | _ => True

/-- The states a program can reach, with the ideal lists they should represent. -/
inductive Reached : State α → List (Cell α) → Prop where
  | start : Reached .empty []
  | step {s s' : State α} {a : List (Cell α)} {op : Op α} : Reached s a → Legal s.values.length op → NoShrink s.values.length op → step s op = some s' →
      Reached s' (ideal s.next a op)

/-- The states a program can reach without insertions and removals between helpers. -/
inductive TameReached : State α → List (Cell α) → Prop where
  | start : TameReached .empty []
  | step {s s' : State α} {a : List (Cell α)} {op : Op α} : TameReached s a → Legal s.values.length op → NoShrink s.values.length op → Tame s a op →
      step s op = some s' → TameReached s' (ideal s.next a op)

end Verif.FAnimList
