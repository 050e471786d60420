import Verif.UriLemmas

/-! # Terms used in the properties in UriProps -/

namespace Verif.FUri

open Verif.FStr (Ch)

/-- What may follow the path of a URI. -/
inductive Tail where
  | nothing
  | query (q : List Ch)
  | fragment (f : List Ch)

/-- The components of a URI. -/
structure Parts where
  scheme : Scheme
  host : List Ch
  port : Option Nat
  path : List Ch
  tail : Tail

/-- The lower case name of a scheme. -/
def Scheme.text : Scheme → List Ch
  | .none => []
  | .file => "file".toList.map fun c => (c.toNat : Int)
  | .ftp => "ftp".toList.map fun c => (c.toNat : Int)
  | .http => "http".toList.map fun c => (c.toNat : Int)
  | .https => "https".toList.map fun c => (c.toNat : Int)

/-- `:port`, or nothing. -/
def portText : Option Nat → List Ch
  | none => []
  | some n => 58 :: FBld.decimal n

/-- `?query`, `#fragment` or nothing. -/
def Tail.text : Tail → List Ch
  | .nothing => []
  | .query q => 63 :: q
  | .fragment f => 35 :: f

/-- The query of a tail. -/
def Tail.q : Tail → List Ch
  | .query q => q
  | _ => []

/-- The fragment of a tail. -/
def Tail.f : Tail → List Ch
  | .fragment f => f
  | _ => []

/-- `scheme://host:port/path?query` or `scheme://host:port/path#fragment`. -/
def Parts.text (p : Parts) : List Ch :=
  p.scheme.text ++ [58, 47, 47] ++ p.host ++ portText p.port ++ p.path ++ p.tail.text

/-- None of these characters occurs. -/
def Free (bad : List Ch) (t : List Ch) : Prop := ∀ c ∈ bad, c ∉ t

/-- A folder or file name: not empty, no separator or URI delimiter, and not one of the two special names. -/
def Name (c : List Ch) : Prop := c ≠ [] ∧ Free [35, 47, 58, 63, 92, 124] c ∧ c ≠ [46] ∧ c ≠ [46, 46]

/-- The absolute path `/a/b/c`. -/
def abs (l : List (List Ch)) : List Ch := (l.map (47 :: ·)).flatten

/-- The relative path from a folder `up` levels below the common one to `/down/.../name`. -/
def rel (up : Nat) (down : List (List Ch)) (name : List Ch) : List Ch :=
  (if up = 0 then [46, 47] else (List.replicate up [46, 46, 47]).flatten) ++ (down.map (· ++ [47])).flatten ++ name

end Verif.FUri
