import Verif.StrLemmas
import Mathlib.Data.List.Lex
import Mathlib.Data.Int.Order.Basic

/-! # Terms used in the properties in StrProps -/

namespace Verif.FStr

open Verif.FVec

/-- The operations of the interface. Texts are given by their characters; strings by a string and the text it holds. -/
inductive Op where
  | setText (xs : List Ch) | setPrefix (xs : List Ch) (n : Nat) | setRepeat (n : Nat) (c : Ch)
  | assign (w : Str) (ys : List Ch) (b : Bool)
  | appendText (xs : List Ch) (n : Nat) | appendStr (w : Str) (ys : List Ch) (b : Bool) | appendChar (c : Ch)
  | insertText (off : Nat) (xs : List Ch) (n : Nat) | insertStr (off : Nat) (w : Str) (ys : List Ch) (b : Bool)
  | erase (start fin : Nat) | substr (start count : Nat) | resize (n : Nat) | clear | popBack

/-- The model's operations. Constructors replace the string by the constructed one. -/
def step (v : Str) : Op → Option Str
  | .setText xs => ofText (xs ++ [0])
  | .setPrefix xs n => ofPrefix (xs ++ [0]) n
  | .setRepeat n c => ofRepeat n c
  | .assign w _ _ => FStr.assign v w
  | .appendText xs n => FStr.appendText v (xs ++ [0]) n
  | .appendStr w _ _ => FStr.appendStr v w
  | .appendChar c => FStr.appendChar v c
  | .insertText off xs n => FStr.insertText v off (xs ++ [0]) n
  | .insertStr off w _ _ => FStr.insertStr v off w
  | .erase a b => FStr.erase v a b
  | .substr a n => FStr.substr v a n
  | .resize n => FStr.resize v n
  | .clear => FStr.clear v
  | .popBack => FStr.popBack v

/-- Specification: what each operation does to a text. -/
inductive Ideal : List (Option Ch) → Op → List (Option Ch) → Prop
  | setText (l xs) : Ideal l (.setText xs) (xs.map some)
  | setPrefix (l xs n) : Ideal l (.setPrefix xs n) ((xs.take n).map some)
  | setRepeat (l n c) : Ideal l (.setRepeat n c) (List.replicate n (some c))
  | assign (l w ys b) : Ideal l (.assign w ys b) (ys.map some)
  | appendText (l xs n) : Ideal l (.appendText xs n) (l ++ (xs.take n).map some)
  | appendStr (l w ys b) : Ideal l (.appendStr w ys b) (l ++ ys.map some)
  | appendChar (l c) : Ideal l (.appendChar c) (if c = 0 then l else l ++ [some c])
  | insertText (l off xs n) : Ideal l (.insertText off xs n) (l.take off ++ (xs.take n).map some ++ l.drop off)
  | insertStr (l off w ys b) : Ideal l (.insertStr off w ys b) (l.take off ++ ys.map some ++ l.drop off)
  | erase (l a b) : Ideal l (.erase a b) (if a < b then l.take a ++ l.drop b else l)
  | substr (l a n) : Ideal l (.substr a n) ((l.drop a).take n)
  | resize (l n new) (h : new.length = n - l.length) : Ideal l (.resize n) (l.take n ++ new)
  | clear (l) : Ideal l .clear []
  | popBack (l) : Ideal l .popBack l.dropLast

/-- Whether the string has a buffer after the operation, given whether it had one before. -/
def keepsBuffer (l : List (Option Ch)) (b : Bool) : Op → Bool
  | .setText _ | .setRepeat _ _ | .resize _ => true
  | .setPrefix _ n => decide (n ≠ 0)
  | .assign _ _ b' => b'
  | .appendText xs _ | .insertText _ xs _ => b || decide (xs ≠ [])
  | .appendStr _ ys _ | .insertStr _ _ ys _ => b || decide (ys ≠ [])
  | .appendChar _ | .erase _ _ | .popBack => b
  | .substr a n => decide (n ≠ 0 ∨ l.length ≤ a)
  | .clear => false

/-- Arguments the interface allows for a text `l`: texts free of NUL that fit in the address space, `pop_back` on non-empty text,
`substr` on a text whose characters are all specified; and, beyond what the interface documents, `append(char)` only
while the string has a buffer. -/
def Op.ok (l : List (Option Ch)) (b : Bool) : Op → Prop
  | .setText xs | .setPrefix xs _ | .appendText xs _ | .insertText _ xs _ => (0 : Ch) ∉ xs ∧ xs.length < 2 ^ 63
  | .setRepeat _ _ => True
  | .assign w ys b' | .appendStr w ys b' | .insertStr _ w ys b' => Holds w (ys.map some) b' ∧ (0 : Ch) ∉ ys ∧ ys.length < 2 ^ 63
  | .appendChar c => c = 0 ∨ b = true
  | .substr _ _ => l.length < 2 ^ 63 ∧ ∀ c ∈ l, ∃ x, c = some x ∧ x ≠ 0
  | .popBack => l ≠ []
  | _ => True

end Verif.FStr
