import Verif.Str

/-!
# Model of the searches of `fm::stringT<char>` (FUtils/FUString.h 211-407)

`buf` is the initialised part of the buffer: the text and its terminator, or nothing for a string without buffer. Iterators are
offsets from `begin()`. An offset of `2^63` or more makes `begin() + offset` wrap to an address below the buffer, which is
then read: undefined (`none`). A `const CH*` argument is given by its characters before the terminator.
-/

namespace Verif.FStr

/-- The loops `for (it = begin() + i; it < fence; ++it) if (test(it)) return it - begin(); return npos;`. -/
def scanFirst (test : Nat → Bool) (i fence : Nat) : Nat :=
  if i < fence then (if test i then i else scanFirst test (i + 1) fence) else npos
termination_by fence - i

/-- The loops `for (it = begin() + i; it < fence; ++it) if (test(it)) ret = it - begin();` with the present value of `ret`. -/
def scanLast (test : Nat → Bool) (i fence ret : Nat) : Nat :=
  if i < fence then scanLast test (i + 1) fence (if test i then i else ret) else ret
termination_by fence - i

/-- `(*it) == character` for an iterator inside the buffer. -/
def charAt (buf : List Ch) (c : Ch) (i : Nat) : Bool := buf[i]? == some c

/-- FUString.h 216-226: `find(character, offset)`. -/
def findChar (buf : List Ch) (c : Ch) (off : Nat) : Option Nat :=
  if c > 0 then (if off < 2 ^ 63 then some (scanFirst (charAt buf c) off buf.length) else none) else some npos

/-- FUString.h 290-301: `rfind(character, offset)`. -/
def rfindChar (buf : List Ch) (c : Ch) (off : Nat) : Option Nat :=
  if c > 0 then (if off < 2 ^ 63 then some (scanLast (charAt buf c) off buf.length npos) else none) else some npos

/-- FUString.h 247-251, 274-278, 323-327, 351-355: compare the characters from an iterator on with the searched text; whether
the end of the text is reached. -/
def matchLoop : List Ch → List Ch → Bool
  | _, [] => true
  | [], _ :: _ => false
  | b :: bs, p :: ps => if p ≠ b then false else matchLoop bs ps

/-- FUString.h 242-251: the test at one iterator: the first character, then all of them. -/
def matchAt (buf pat : List Ch) (i : Nat) : Bool :=
  match pat with
  | [] => false
  | p :: _ => charAt buf p i && matchLoop (buf.drop i) pat

/-- FUString.h 234-256: `find(const stringT& str, offset)`. -/
def findStr (buf pat : List Ch) (off : Nat) : Option Nat :=
  if pat.length > 0 ∧ buf.length - 1 ≥ pat.length then
    (if off < 2 ^ 63 then some (scanFirst (matchAt buf pat) off (buf.length - pat.length + 1)) else none)
  else some npos

/-- FUString.h 263-283: `find(const CH* c, offset)`. -/
def findText (buf pat : List Ch) (off : Nat) : Option Nat :=
  if pat.length > 0 ∧ buf.length ≥ pat.length then
    (if off < 2 ^ 63 then some (scanFirst (matchAt buf pat) off (buf.length - pat.length + 1)) else none)
  else some npos

/-- FUString.h 309-332: `rfind(const stringT& str, offset)`. -/
def rfindStr (buf pat : List Ch) (off : Nat) : Option Nat :=
  if pat.length > 0 ∧ buf.length - 1 ≥ pat.length then
    (if off < 2 ^ 63 then some (scanLast (matchAt buf pat) off (buf.length - pat.length + 1) npos) else none)
  else some npos

/-- FUString.h 339-360: `rfind(const CH* c, offset)`. -/
def rfindText (buf pat : List Ch) (off : Nat) : Option Nat :=
  if pat.length > 0 ∧ buf.length ≥ pat.length then
    (if off < 2 ^ 63 then some (scanLast (matchAt buf pat) off (buf.length - pat.length + 1) npos) else none)
  else some npos

/-- FUString.h 374-376: whether the character at an iterator is one of the set. -/
def anyAt (buf set : List Ch) (i : Nat) : Bool := set.any fun d => charAt buf d i

/-- FUString.h 367-380: `find_first_of(c, offset)`. -/
def findFirstOf (buf set : List Ch) (off : Nat) : Option Nat :=
  if set.length > 0 ∧ buf.length ≥ set.length then
    (if off < 2 ^ 63 then some (scanFirst (anyAt buf set) off buf.length) else none)
  else some npos

/-- FUString.h 395-404: the backward loop of `find_last_of` at the iterator `it`. -/
def lastOfLoop (buf set : List Ch) : Nat → Nat → Nat
  | 0, ret => if anyAt buf set 0 then ret else npos
  | it + 1, ret => if anyAt buf set (it + 1) then ret else lastOfLoop buf set it (ret - 1)

/-- FUString.h 387-407: `find_last_of(c, offset)`. -/
def findLastOf (buf set : List Ch) (off : Nat) : Option Nat :=
  if set.length > 0 ∧ buf.length ≥ set.length then
    (if off < 2 ^ 63 then
      (if set.length + off ≤ buf.length then
        -- with `it` at `end()` (no set, no offset) the code would read past the buffer; excluded by `set.length > 0`
        some (lastOfLoop buf set (buf.length - (set.length + off)) (buf.length - 1 - off))
      else some npos)
    else none)
  else some npos

end Verif.FStr
