import Verif.Conv

/-!
# Model of COLLADA version numbers (FCDocument/FCDVersion.h, FCDVersion.cpp)
-/

namespace Verif.FVer

open Verif.FStr (Ch)

/-- FCDVersion.h 33-35. The numbers are 32-bit. -/
structure Version where
  major : Nat
  minor : Nat
  revision : Nat
deriving DecidableEq

/-- FCDVersion.cpp 34, 36: skip to the character after the next '.'. -/
def skipDot (s : List Ch) : Option (List Ch) :=
  (FConv.skipWhile (fun c => c ≠ 46) s).bind fun s1 => (FConv.deref s1).map fun c => if c ≠ 0 then s1.drop 1 else s1

/-- FCDVersion.cpp 30-38: `ParseVersionNumbers`; `ToUInt32(const char*)` leaves `v` where it is. -/
def parse (s : List Ch) : Option Version :=
  (FConv.toUInt32 s).bind fun a =>
  (skipDot s).bind fun s1 =>
  (FConv.toUInt32 s1).bind fun b =>
  (skipDot s1).bind fun s2 =>
  (FConv.toUInt32 s2).map fun c => ⟨a.1, b.1, c.1⟩

/-- FCDVersion.cpp 40-43: `IsEquivalent`. -/
def equivalent (a b : Version) : Bool := a.major = b.major && a.minor = b.minor && a.revision = b.revision

/-- FCDVersion.cpp 45-52: `operator<`. -/
def lt (a b : Version) : Bool :=
  if a.major < b.major then true
  else if a.major > b.major then false
  else if a.minor < b.minor then true
  else if a.minor > b.minor then false
  else a.revision < b.revision

/-- FCDVersion.cpp 54-61: `operator<=`. -/
def le (a b : Version) : Bool :=
  if a.major < b.major then true
  else if a.major > b.major then false
  else if a.minor < b.minor then true
  else if a.minor > b.minor then false
  else a.revision ≤ b.revision

/-- FCDVersion.h 77: `operator>`. -/
def gt (a b : Version) : Bool := le b a

/-- FCDVersion.h 82: `operator>=`. -/
def ge (a b : Version) : Bool := lt b a

end Verif.FVer
