import Verif.XmlText
import Verif.ConvProps
import Verif.StrLemmas

/-! # Terms used in the properties in XmlTextProps -/

namespace Verif.FXml

open Verif.FStr (Ch)

/-- A value of type `char` other than the terminator. -/
def IsChar (c : Int) : Prop := -128 ≤ c ∧ c ≤ 127 ∧ c ≠ 0

/-- The byte of a character, in hexadecimal. -/
def hexOf (c : Int) : List Ch := FBld.hexPair (c % 256).toNat

/-- Keep the allowed characters, write the others as `%XX`. -/
def escaped (ok : Ch → Bool) (t : List Ch) : List Ch := t.flatMap fun c => if ok c then [c] else 37 :: hexOf c

/-- Letters, digits and `- . / : _`. -/
def filenameOk (c : Int) : Bool :=
  (65 ≤ c && c ≤ 90) || (97 ≤ c && c ≤ 122) || (48 ≤ c && c ≤ 57) || [45, 46, 47, 58, 95].contains c

/-- Newline, carriage return and the printable characters but for `" ' < > @ \ ^ ` ` and `~`. -/
def contentOk (c : Int) : Bool := c == 10 || c == 13 || (32 ≤ c && c ≤ 125 && !([34, 39, 60, 62, 64, 92, 94, 96].contains c))

/-- Letters. -/
def letter (c : Int) : Bool := (65 ≤ c && c ≤ 90) || (97 ≤ c && c ≤ 122)

/-- A character that may start an identifier. -/
def startChar (c : Int) : Bool := letter c || c == 95

/-- A character that may continue one. -/
def nameChar (dot : Bool) (c : Int) : Bool := letter c || (48 ≤ c && c ≤ 57) || c == 95 || c == 45 || (dot && c == 46)

end Verif.FXml
