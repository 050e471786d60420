import Verif.VecLemmas

/-! # Terms used in the properties in VecProps -/

namespace Verif.FVec

variable {T : Type} [DecidableEq T]

/-- The operations of the interface, positions being offsets from `begin()`. -/
inductive Op (T : Type) where
  | pushBack (x : T) | pushFront (x : T) | insert (it : Nat) (x : T) | insertMany (it n : Nat) (x : T)
  | insertRange (it : Nat) (xs : List T) | eraseAt (it : Nat) | eraseRange (first last : Nat) | eraseValue (x : T)
  | replace (old new : T) | resize (n : Nat) | resizeWith (n : Nat) (x : T) | reserve (n : Nat) | popBack | popFront
  | clear | assign (xs : List T)

/-- The model's operations. -/
def step (triv : Bool) (dflt : T) (v : Vec T) : Op T → Option (Vec T)
  | .pushBack x => FVec.pushBack triv v (.val x)
  | .pushFront x => FVec.pushFront triv v (.val x)
  | .insert it x => insertOne triv v it (.val x)
  | .insertMany it n x => FVec.insertMany triv v it n (.val x)
  | .insertRange it xs => FVec.insertRange triv v it xs
  | .eraseAt it => FVec.eraseAt triv v it
  | .eraseRange a b => FVec.eraseRange triv v a b
  | .eraseValue x => (FVec.eraseValue triv v x).map Prod.fst
  | .replace a b => FVec.replace triv v a b
  | .resize n => FVec.resize triv dflt v n
  | .resizeWith n x => FVec.resizeWith triv v n (.val x)
  | .reserve n => FVec.reserve triv v n
  | .popBack => FVec.popBack triv v
  | .popFront => FVec.popFront triv v
  | .clear => FVec.clear triv v
  | .assign xs => FVec.assign triv dflt v xs

def run (triv : Bool) (dflt : T) (v : Vec T) : List (Op T) → Option (Vec T)
  | [] => some v
  | op :: ops => (step triv dflt v op).bind fun v' => run triv dflt v' ops

/-- Arguments that make sense for a sequence of length `n`. -/
def Op.ok (n : Nat) : Op T → Prop
  | .insert it _ => it ≤ n
  | .insertMany it _ _ => it ≤ n
  | .insertRange it _ => it ≤ n
  | .eraseAt it => it < n
  | .eraseRange a b => a < b ∧ b ≤ n
  | .popBack => 0 < n
  | .popFront => 0 < n
  | _ => True

/-- Specification: what each operation does to a sequence. `reserve n` keeps at most `n` elements, as its documentation says
for `reserve(0)`. -/
inductive Ideal (triv : Bool) (dflt : T) : List (Option T) → Op T → List (Option T) → Prop
  | pushBack (l x) : Ideal triv dflt l (.pushBack x) (l ++ [some x])
  | pushFront (l x) : Ideal triv dflt l (.pushFront x) (some x :: l)
  | insert (l it x) : Ideal triv dflt l (.insert it x) (l.insertIdx it (some x))
  | insertMany (l it n x) : Ideal triv dflt l (.insertMany it n x) (l.take it ++ List.replicate n (some x) ++ l.drop it)
  | insertRange (l it xs) : Ideal triv dflt l (.insertRange it xs) (l.take it ++ xs.map some ++ l.drop it)
  | eraseAt (l it) : Ideal triv dflt l (.eraseAt it) (l.eraseIdx it)
  | eraseRange (l a b) : Ideal triv dflt l (.eraseRange a b) (l.take a ++ l.drop b)
  | eraseValue (l x) : Ideal triv dflt l (.eraseValue x) (l.erase (some x))
  | replace (l old new) : Ideal triv dflt l (.replace old new) (l.map fun c => if c = some old then some new else c)
  | resize (l n new) (hl : new.length = n - l.length) (hd : triv = false → ∀ c ∈ new, c = some dflt) :
      Ideal triv dflt l (.resize n) (l.take n ++ new)
  | resizeWith (l n x) : Ideal triv dflt l (.resizeWith n x) (l.take n ++ List.replicate (n - l.length) (some x))
  | reserve (l n) : Ideal triv dflt l (.reserve n) (l.take n)
  | popBack (l) : Ideal triv dflt l .popBack l.dropLast
  | popFront (l) : Ideal triv dflt l .popFront l.tail
  | clear (l) : Ideal triv dflt l .clear []
  | assign (l xs) : Ideal triv dflt l (.assign xs) (xs.map some)

inductive IdealRun (triv : Bool) (dflt : T) : List (Option T) → List (Op T) → List (Option T) → Prop
  | nil (l) : IdealRun triv dflt l [] l
  | cons {l op l' ops l''} : Ideal triv dflt l op l' → IdealRun triv dflt l' ops l'' → IdealRun triv dflt l (op :: ops) l''

/-- A history whose arguments are in range. -/
def InRange (triv : Bool) (dflt : T) : List (Option T) → List (Op T) → Prop
  | _, [] => True
  | l, op :: ops => op.ok l.length ∧ ∀ l', Ideal triv dflt l op l' → InRange triv dflt l' ops

end Verif.FVec
