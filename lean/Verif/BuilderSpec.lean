import Verif.BuilderLemmas

/-! # Terms used in the properties in BuilderProps -/

namespace Verif.FBld

open Verif.FStr (Ch)

/-- One call on a builder. -/
inductive Op where
  | char (c : Ch) | text (mem : List Ch) | textLen (mem : List Ch) (len : Nat) | line (mem : List Ch)
  | builder (b : Bld) | self | u32 (n : Nat) | i32 (i : Int) | hex8 (i : Nat)
  | pop | clear | setText (mem : List Ch) | removeFrom (s : Int) | removeRange (s e : Int) | reserve (n : Nat) | charPtr

/-- The model of a call. -/
def Op.run (v : Bld) : Op → Option Bld
  | .char c => appendChar v c
  | .text mem => appendText v mem
  | .textLen mem len => appendLen v mem len
  | .line mem => appendLine v mem
  | .builder b => appendBld v b
  | .self => appendSelf v
  | .u32 n => appendU32 v n
  | .i32 i => appendI32 v i
  | .hex8 i => appendHex8 v i
  | .pop => some (popBack v)
  | .clear => some (FBld.clear v)
  | .setText mem => appendText (FBld.clear v) mem
  | .removeFrom s => some (FBld.removeFrom v s)
  | .removeRange s e => FBld.removeRange v s e
  | .reserve n => some (FBld.reserve v n)
  | .charPtr => toCharPtr v

/-- The text at an address, as the C conventions have it. -/
def cText (mem : List Ch) : List Ch := mem.takeWhile (· ≠ 0)

/-- The canonical decimal numeral. -/
def numeral (n : Nat) : List Ch := (Nat.toDigits 10 n).map fun c => (c.toNat : Int)

/-- The two upper case hexadecimal digits of a byte. -/
def hexPair (i : Nat) : List Ch :=
  let d (k : Nat) : Ch := (("0123456789ABCDEF".toList[k]?).getD '?').toNat
  [d (i / 16), d (i % 16)]

/-- What a call should do to the text `l`. -/
def Op.spec (l : List Ch) : Op → List Ch
  | .char c => l ++ [c]
  | .text mem => l ++ cText mem
  | .textLen mem len => l ++ mem.take len
  | .line mem => l ++ cText mem ++ [10]
  | .builder b => l ++ (b.buf.take b.size).filterMap id
  | .self => l ++ l
  | .u32 n => l ++ numeral n
  | .i32 i => l ++ (if i < 0 then [45] else []) ++ numeral i.natAbs
  | .hex8 i => l ++ hexPair i
  | .pop => l.dropLast
  | .clear => []
  | .setText mem => cText mem
  | .removeFrom s => if 0 ≤ s then l.take s.toNat else l
  | .removeRange s e => if 0 ≤ s ∧ s < e ∧ e ≤ l.length then l.take s.toNat ++ l.drop e.toNat else l
  | .reserve n => l.take n
  | .charPtr => l

/-- The caller's obligations: texts are terminated, arguments fit their C types, other builders were themselves made by legal calls
(so they hold some text), and the `int32` positions of `remove` can address the text. -/
def Op.Legal (l : List Ch) : Op → Prop
  | .text mem | .line mem | .setText mem => 0 ∈ mem
  | .textLen mem len => len ≤ mem.length
  | .builder b => ∃ m, Holds b m
  | .u32 n => n < 2 ^ 32
  | .i32 i => -2 ^ 31 ≤ i ∧ i < 2 ^ 31
  | .hex8 i => i < 256
  | .removeFrom _ => l.length < 2 ^ 31
  | .removeRange s e => l.length < 2 ^ 31 ∧ -2 ^ 31 ≤ e - s ∧ e - s < 2 ^ 31
  | _ => True

end Verif.FBld
