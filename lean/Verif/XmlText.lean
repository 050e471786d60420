import Verif.Conv

/-!
# Model of the XML text escaping (FUtils/FUXmlWriter.cpp, FUtils/FUXmlParser.cpp) and of the identifier cleaning (FCDObjectWithId.cpp)

The parts of these functions that call libxml2 are not modelled: `AddContent` stops at the text given to `xmlNodeAddContent`, `XmlToString`
starts at the text it is given. `none` is undefined behaviour.
-/

namespace Verif.FXml

open Verif.FStr (Ch)
open Verif.FBld (Bld)

/-- FUXmlWriter.cpp 17-35. -/
def filenameTable : List Bool := [
  false, false, false, false, false, false, false, false, false, false, false, false, false, false, false, false,
  false, false, false, false, false, false, false, false, false, false, false, false, false, false, false, false,
  false, false, false, false, false, false, false, false, false, false, false, false, false, true, true, true,
  true, true, true, true, true, true, true, true, true, true, true, false, false, false, false, false,
  false, true, true, true, true, true, true, true, true, true, true, true, true, true, true, true,
  true, true, true, true, true, true, true, true, true, true, true, false, false, false, false, true,
  false, true, true, true, true, true, true, true, true, true, true, true, true, true, true, true,
  true, true, true, true, true, true, true, true, true, true, true, false, false, false, false, false,
  false, false, false, false, false, false, false, false, false, false, false, false, false, false, false, false,
  false, false, false, false, false, false, false, false, false, false, false, false, false, false, false, false,
  false, false, false, false, false, false, false, false, false, false, false, false, false, false, false, false,
  false, false, false, false, false, false, false, false, false, false, false, false, false, false, false, false,
  false, false, false, false, false, false, false, false, false, false, false, false, false, false, false, false,
  false, false, false, false, false, false, false, false, false, false, false, false, false, false, false, false,
  false, false, false, false, false, false, false, false, false, false, false, false, false, false, false, false,
  false, false, false, false, false, false, false, false, false, false, false, false, false, false, false, false
]

/-- FUXmlWriter.cpp 37-55. -/
def xmlTable : List Bool := [
  false, false, false, false, false, false, false, false, false, false, true, false, false, true, false, false,
  false, false, false, false, false, false, false, false, false, false, false, false, false, false, false, false,
  true, true, false, true, true, true, true, false, true, true, true, true, true, true, true, true,
  true, true, true, true, true, true, true, true, true, true, true, true, false, true, false, true,
  false, true, true, true, true, true, true, true, true, true, true, true, true, true, true, true,
  true, true, true, true, true, true, true, true, true, true, true, true, false, true, false, true,
  false, true, true, true, true, true, true, true, true, true, true, true, true, true, true, true,
  true, true, true, true, true, true, true, true, true, true, true, true, true, true, false, false,
  false, false, false, false, false, false, false, false, false, false, false, false, false, false, false, false,
  false, false, false, false, false, false, false, false, false, false, false, false, false, false, false, false,
  false, false, false, false, false, false, false, false, false, false, false, false, false, false, false, false,
  false, false, false, false, false, false, false, false, false, false, false, false, false, false, false, false,
  false, false, false, false, false, false, false, false, false, false, false, false, false, false, false, false,
  false, false, false, false, false, false, false, false, false, false, false, false, false, false, false, false,
  false, false, false, false, false, false, false, false, false, false, false, false, false, false, false, false,
  false, false, false, false, false, false, false, false, false, false, false, false, false, false, false, false
]

/-- `(uint8) c`. -/
def u8 (c : Int) : Nat := (c % 256).toNat

/-- `(char) value`, implementation defined above 127: wraps. -/
def toChar (n : Nat) : Ch := Int.bmod (n : Int) 256

/-- FUXmlWriter.cpp 143-157 and 177-185: the loop, over the memory of a C string. -/
def escapeLoop (table : List Bool) : Bld → List Ch → Option Bld
  | _, [] => none
  | b, c :: rest =>
    if c = 0 then some b
    else if table.getD (u8 c) false then (FBld.appendChar b c).bind fun b => escapeLoop table b rest
    else (FBld.appendChar b 37).bind fun b => (FBld.appendHex8 b (u8 c)).bind fun b => escapeLoop table b rest

/-- FUXmlWriter.cpp 135-161: the text `AddContent` gives to libxml2. -/
def addContent (mem : List Ch) : Option (List Ch) := (escapeLoop xmlTable (FBld.ofReserve 32) mem).bind FBld.toText

/-- FUXmlWriter.cpp 172-187: `ConvertFilename`. -/
def convertFilename (mem : List Ch) : Option (List Ch) := (escapeLoop filenameTable (FBld.ofReserve 32) mem).bind FBld.toText

/-- FUXmlParser.cpp 28-41: the loop of `XmlToString`; the fuel bounds the number of iterations. -/
def decodeLoop : Nat → Bld → List Ch → Option Bld
  | 0, _, _ => none
  | _, _, [] => none
  | fuel + 1, b, c :: rest =>
    if c = 0 then some b
    else if c ≠ 37 then (FBld.appendChar b c).bind fun b => decodeLoop fuel b rest
    else (FConv.hexToUInt32 rest 2).bind fun r => (FBld.appendChar b (toChar r.1)).bind fun b => decodeLoop fuel b r.2

/-- FUXmlParser.cpp 23-43: `XmlToString`. -/
def xmlToString (mem : List Ch) : Option (List Ch) := (decodeLoop (mem.length + 1) (FBld.ofReserve 32) mem).bind FBld.toText

/-! ## Identifiers -/

/-- FCDObjectWithId.cpp 87, 115: the length, at most `MAX_ID_LENGTH` (512, FCDObjectWithId.h). -/
def idLength : Nat → List Ch → Option Nat
  | 0, _ => some 0
  | _, [] => none
  | n + 1, c :: rest => if c = 0 then some 0 else (idLength n rest).map (· + 1)

/-- FCDObjectWithId.cpp 93, 121. -/
def firstOk (c : Ch) : Bool := (c ≥ 97 && c ≤ 122) || (c ≥ 65 && c ≤ 90) || c == 95

/-- FCDObjectWithId.cpp 103; without `'.'` 131. -/
def otherOk (dot : Bool) (c : Ch) : Bool :=
  (c ≥ 97 && c ≤ 122) || (c ≥ 65 && c ≤ 90) || (c ≥ 48 && c ≤ 57) || c == 95 || c == 45 || (dot && c == 46)

/-- A store through `out.begin()`. -/
def poke (v : FStr.Str) (i : Nat) (c : Ch) : Option FStr.Str := if i < v.sized then some { v with buf := v.buf.set i (some c) } else none

/-- FCDObjectWithId.cpp 100-105, 128-133: positions `i` to `len - 1`. -/
def cleanLoop (dot : Bool) (i : Nat) : Nat → List Ch → FStr.Str → Option FStr.Str
  | 0, _, v => some v
  | _, [], _ => none
  | n + 1, c :: rest, v => (poke v i (if otherOk dot c then c else 95)).bind fun v => cleanLoop dot (i + 1) n rest v

/-- FCDObjectWithId.cpp 84-110: `CleanId` (`dot`), 112-138: `CleanSubId`. FCDEntity.cpp 67-91, `CleanName`, is the same as the latter. -/
def clean (dot : Bool) (mem : List Ch) : Option FStr.Str :=
  (idLength 512 mem).bind fun len =>
  match mem with
  | [] => none
  | c :: rest =>
    (FStr.ofRepeat len c).bind fun out =>
    if c = 0 then some out
    else (poke out 0 (if firstOk c then c else 95)).bind fun out => (cleanLoop dot 1 (len - 1) rest out).bind fun out => poke out len 0

/-! ## `FUUri::Escape` -/

/-- FUUri.cpp 671: characters that are not to be escaped: letters, digits, marks, reserved characters. -/
def uriPlain (c : Ch) : Bool :=
  (c ≥ 65 && c ≤ 90) || (c ≥ 97 && c ≤ 122) || (c ≥ 48 && c ≤ 57) || [45, 95, 46, 33, 126, 42, 39, 40, 41].contains c ||
    [59, 47, 63, 58, 64, 38, 61, 43, 36, 44].contains c

/-- FUUri.cpp 657. -/
def isHex (c : Ch) : Bool := (c ≥ 65 && c ≤ 70) || (c ≥ 97 && c ≤ 102) || (c ≥ 48 && c ≤ 57)

/-- FUUri.cpp 665-697: `Escape`, on texts; after the last character `*itNext` is the terminator. -/
def uriEscape : List Ch → List Ch
  | [] => []
  | c :: rest =>
    (if uriPlain c then [c] else []) ++ (if c = 37 ∧ isHex (rest.headD 0) then [c] else []) ++ 37 :: FBld.decimalInt c ++ uriEscape rest

end Verif.FXml
