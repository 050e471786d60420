import Mathlib.Data.List.Basic

/-!
# Model of `FUBase64` (FUtils/FUBase64.cpp)

Byte lists stand for `UInt8List`. Reads and writes through the raw pointers are bounds-checked: an access outside the
vector is undefined behaviour and yields `none`.
-/

namespace Verif.Base64

/-- `uint8`. -/
abbrev Byte := BitVec 8

/-- FUBase64.cpp 14-23: `BASE64_ALPHABET`. -/
def alphabet : List Nat :=
  [65, 66, 67, 68, 69, 70, 71, 72, 73, 74, 75, 76, 77, 78, 79, 80,
   81, 82, 83, 84, 85, 86, 87, 88, 89, 90, 97, 98, 99, 100, 101, 102,
   103, 104, 105, 106, 107, 108, 109, 110, 111, 112, 113, 114, 115, 116, 117, 118,
   119, 120, 121, 122, 48, 49, 50, 51, 52, 53, 54, 55, 56, 57, 43, 47]

/-- FUBase64.cpp 25-40: `BASE64_DEALPHABET`. -/
def dealphabet : List Nat :=
  [0, 0, 0, 0, 0, 0, 0, 0, 0, 0, 0, 0, 0, 0, 0, 0,
   0, 0, 0, 0, 0, 0, 0, 0, 0, 0, 0, 0, 0, 0, 0, 0,
   0, 0, 0, 0, 0, 0, 0, 0, 0, 0, 0, 62, 0, 0, 0, 63,
   52, 53, 54, 55, 56, 57, 58, 59, 60, 61, 0, 0, 0, 61, 0, 0,
   0, 0, 1, 2, 3, 4, 5, 6, 7, 8, 9, 10, 11, 12, 13, 14,
   15, 16, 17, 18, 19, 20, 21, 22, 23, 24, 25, 0, 0, 0, 0, 0,
   0, 26, 27, 28, 29, 30, 31, 32, 33, 34, 35, 36, 37, 38, 39, 40,
   41, 42, 43, 44, 45, 46, 47, 48, 49, 50, 51, 0, 0, 0, 0, 0]

/-- The character `'='`. -/
def pad : Byte := 61#8

/-- A write through a raw pointer into a vector; `none` outside it. -/
def poke (buf : List Byte) (i : Nat) (v : Byte) : Option (List Byte) :=
  if i < buf.length then some (buf.set i v) else none

/-- FUBase64.cpp 43-51: `CalculateRecquiredEncodeOutputBufferSize`. The count is converted to `int` and multiplied by
four as an `int`; simplification: a count above `INT_MAX` and an overflowing product are both `none`. -/
def encodeSize (n : Nat) : Option Nat :=
  if n < 2 ^ 31 ∧ n / 3 * 4 < 2 ^ 31 then
    some (if n % 3 > 0 then n / 3 * 4 + 4 else n / 3 * 4)
  else none

/-- FUBase64.cpp 53-73: `CalculateRecquiredDecodeOutputBufferSize`. `none`: a read before the buffer, or a negative
`int` result turned into a gigantic size. -/
def decodeSize (inp : List Byte) : Option Nat :=
  if inp.length = 0 ∨ inp.length ≥ 2 ^ 31 then none
  else do
    let last ← inp[inp.length - 1]?
    if last ≠ pad then some (inp.length / 4 * 3)
    else if inp.length < 2 then none
    else do
      let sl ← inp[inp.length - 2]?
      if sl = pad then (if inp.length / 4 * 3 < 2 then none else some (inp.length / 4 * 3 - 2))
      else (if inp.length / 4 * 3 < 1 then none else some (inp.length / 4 * 3 - 1))

/-- FUBase64.cpp 80-83: the `uint32` whose little-endian bytes are `temp[3] = t3`, `temp[2] = t2`, `temp[1] = t1`, `temp[0] = 0`. -/
def word (t3 t2 t1 : Byte) : BitVec 32 :=
  BitVec.ofNat 32 (t3.toNat * 2 ^ 24 + t2.toNat * 2 ^ 16 + t1.toNat * 2 ^ 8)

/-- The byte `temp[k]` of a `uint32` on a little-endian machine (FUBase64.cpp 134-135, 146-148, 161-164). -/
def byteOf (w : BitVec 32) (k : Nat) : Byte := (w >>> (8 * k)).setWidth 8

/-- FUBase64.cpp 89: `BASE64_ALPHABET[(buffer & mask) >> 26]`. -/
def topSextet (w : BitVec 32) : Option Byte :=
  (alphabet[((w &&& 0xfc000000#32) >>> 26).toNat]?).map (BitVec.ofNat 8)

/-- FUBase64.cpp 89: `outputBuffer[o] = BASE64_ALPHABET[(buffer & mask) >> 26]`. -/
def emit (out : List Byte) (o : Nat) (w : BitVec 32) : Option (List Byte) :=
  (topSextet w).bind fun c => poke out o c

/-- FUBase64.cpp 90: `buffer = buffer << 6`. -/
def shl (w : BitVec 32) : BitVec 32 := w <<< 6

/-- FUBase64.cpp 85-119: the `switch` of `EncodeByteTriple`; any other length is a failed assertion that writes nothing. -/
def encodeWord (w : BitVec 32) (len : Nat) (out : List Byte) (o : Nat) : Option (List Byte) :=
  match len with
  | 3 => do
    let out ← emit out o w
    let out ← emit out (o + 1) (shl w)
    let out ← emit out (o + 2) (shl (shl w))
    emit out (o + 3) (shl (shl (shl w)))
  | 2 => do
    let out ← emit out o w
    let out ← emit out (o + 1) (shl w)
    let out ← emit out (o + 2) (shl (shl w))
    poke out (o + 3) pad
  | 1 => do
    let out ← emit out o w
    let out ← emit out (o + 1) (shl w)
    let out ← poke out (o + 2) pad
    poke out (o + 3) pad
  | _ => some out

/-- FUBase64.cpp 75-120: `EncodeByteTriple(inputBuffer + i, len, outputBuffer + o)`. -/
def encodeTriple (inp : List Byte) (i len : Nat) (out : List Byte) (o : Nat) : Option (List Byte) :=
  (inp[i]?).bind fun b0 =>
  (if len > 1 then inp[i + 1]? else some 0#8).bind fun b1 =>
  (if len > 2 then inp[i + 2]? else some 0#8).bind fun b2 =>
  encodeWord (word b0 b1 b2) len out o

/-- FUBase64.cpp 185-198: the loop of `encode`. -/
def encodeLoop (inp : List Byte) (out : List Byte) (i o : Nat) : Option (List Byte) :=
  if i < inp.length then
    if inp.length - i ≤ 2 then encodeTriple inp i (inp.length - i) out o
    else (encodeTriple inp i 3 out o).bind fun out' => encodeLoop inp out' (i + 3) (o + 4)
  else some out
termination_by inp.length - i

/-- FUBase64.cpp 171-199: `encode`. -/
def encode (inp : List Byte) : Option (List Byte) :=
  if inp.length = 0 then some []
  else (encodeSize inp.length).bind fun n => encodeLoop inp (List.replicate n 0#8) 0 0

/-- FUBase64.cpp 222-225: the characters that are not ignored. -/
def accepted (c : Byte) : Bool :=
  (48 ≤ c.toNat && c.toNat ≤ 57) || (65 ≤ c.toNat && c.toNat ≤ 90) || (97 ≤ c.toNat && c.toNat ≤ 122) ||
    c.toNat == 43 || c.toNat == 47 || c.toNat == 61

/-- FUBase64.cpp 217-234: one completed iteration of the inner loop: read characters from index `i` on until one is accepted.
There is no bounds check in the code, so reading past the end is `none`. -/
def nextAccepted (inp : List Byte) (i : Nat) : Option (Byte × Nat) :=
  if h : i < inp.length then
    if accepted inp[i] then some (inp[i], i + 1) else nextAccepted inp (i + 1)
  else none
termination_by inp.length - i

/-- FUBase64.cpp 130: `buffer = (buffer | BASE64_DEALPHABET[c]) << 6`. -/
def pushSextet (w : BitVec 32) (c : Byte) : Option (BitVec 32) :=
  (dealphabet[c.toNat]?).map fun d => (w ||| BitVec.ofNat 32 d) <<< 6

/-- FUBase64.cpp 122-169: `DecodebyteQuartet(q, outputBuffer + o)`: the buffer and the number of bytes written. -/
def decodeQuartet (q0 q1 q2 q3 : Byte) (out : List Byte) (o : Nat) : Option (List Byte × Nat) := do
  if q3 = pad then
    if q2 = pad then
      let w ← pushSextet 0#32 q0
      let w ← pushSextet w q1
      let w := w <<< 14
      let out ← poke out o (byteOf w 3)
      some (out, 1)
    else
      let w ← pushSextet 0#32 q0
      let w ← pushSextet w q1
      let w ← pushSextet w q2
      let w := w <<< 8
      let out ← poke out o (byteOf w 3)
      let out ← poke out (o + 1) (byteOf w 2)
      some (out, 2)
  else
    let w ← pushSextet 0#32 q0
    let w ← pushSextet w q1
    let w ← pushSextet w q2
    let w ← pushSextet w q3
    let w := w <<< 2
    let out ← poke out o (byteOf w 3)
    let out ← poke out (o + 1) (byteOf w 2)
    let out ← poke out (o + 2) (byteOf w 1)
    some (out, 3)

theorem nextAccepted_gt (inp : List Byte) (i : Nat) {c j} (h : nextAccepted inp i = some (c, j)) : i < j ∧ i < inp.length := by
  fun_induction nextAccepted inp i with
  | case1 i hl ha => simp at h; omega
  | case2 i hl ha ih => have := ih h; omega
  | case3 i hl => simp at h

/-- FUBase64.cpp 217-234: the inner `for` loop. -/
def readQuartet (inp : List Byte) (i : Nat) : Option (Byte × Byte × Byte × Byte × Nat) := do
  let (a, i) ← nextAccepted inp i
  let (b, i) ← nextAccepted inp i
  let (c, i) ← nextAccepted inp i
  let (d, i) ← nextAccepted inp i
  some (a, b, c, d, i)

theorem readQuartet_gt (inp : List Byte) (i : Nat) {a b c d j} (h : readQuartet inp i = some (a, b, c, d, j)) :
    i < j ∧ i < inp.length := by
  simp only [readQuartet, Option.bind_eq_bind, Option.bind_eq_some_iff, Prod.exists, Option.some.injEq, Prod.mk.injEq] at h
  obtain ⟨_, _, h1, _, _, h2, _, _, h3, _, _, h4, _, _, _, _, rfl⟩ := h
  have := nextAccepted_gt _ _ h1
  have := nextAccepted_gt _ _ h2
  have := nextAccepted_gt _ _ h3
  have := nextAccepted_gt _ _ h4
  omega

/-- FUBase64.cpp 215-237: the loop of `decode`. -/
def decodeLoop (inp : List Byte) (out : List Byte) (i o : Nat) : Option (List Byte) :=
  if i < inp.length then
    match _h : readQuartet inp i with
    | none => none
    | some (a, b, c, d, j) =>
      (decodeQuartet a b c d out o).bind fun (out', n) => decodeLoop inp out' j (o + n)
  else some out
termination_by inp.length - i
decreasing_by have := readQuartet_gt _ _ _h; omega

/-- FUBase64.cpp 201-238: `decode`. `input.at(0)` on an empty input and `output.at(0)` on an empty output form references
through a NULL buffer: undefined. -/
def decode (inp : List Byte) : Option (List Byte) :=
  if inp.length = 0 then none
  else (decodeSize inp).bind fun n =>
    if n = 0 then none else decodeLoop inp (List.replicate n 0#8) 0 0

end Verif.Base64
