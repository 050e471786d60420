import Verif.Conv

/-!
# Model of `FUUri` (FUtils/FUUri.cpp), non-WIN32

Strings are texts. `find(c, offset)` is exact for the positive characters searched here (`string_find_char_partial`), `substr(start, count)`
is `take count` of what follows `start` whatever the count (FUString.h 124-129, 69-86: the count is cut at the end of the text).
`size_t` subtraction wraps (`wsub`). `none` is undefined behaviour.
-/

namespace Verif.FUri

open Verif.FStr (Ch)

/-- `find(c, offset)`; `none` is `npos`. -/
def find (c : Ch) (t : List Ch) (off : Nat) : Option Nat := ((t.drop off).findIdx? (· == c)).map (· + off)

/-- `substr(start, count)`. -/
def sub (t : List Ch) (start count : Nat) : List Ch := (t.drop start).take count

/-- `a - b` on `size_t`. -/
def wsub (a b : Nat) : Nat := (a + (2 ^ 64 - b)) % 2 ^ 64

/-- `replace('\\', '/')`. -/
def slashes (t : List Ch) : List Ch := t.map fun c => if c = 92 then 47 else c

/-- FUUri.h 39-46. -/
inductive Scheme where
  | none | file | ftp | http | https
deriving DecidableEq, Repr

/-- FUUri.h 49-67. -/
structure Uri where
  scheme : Scheme := .none
  delim : List Ch := []
  user : List Ch := []
  pass : List Ch := []
  host : List Ch := []
  port : Nat := 0
  path : List Ch := []
  query : List Ch := []
  fragment : List Ch := []
deriving DecidableEq, Repr

/-- "file" -/
def fileT : List Ch := [102, 105, 108, 101]
/-- "ftp" -/
def ftpT : List Ch := [102, 116, 112]
/-- "http" -/
def httpT : List Ch := [104, 116, 116, 112]
/-- "https" -/
def httpsT : List Ch := [104, 116, 116, 112, 115]

/-- FUUri.cpp 59-81: the scheme; unknown ones leave `NONE`. -/
def schemeOf (t : List Ch) : Scheme :=
  if t = [70, 73, 76, 69] ∨ t = fileT then .file
  else if t = [70, 84, 80] ∨ t = ftpT then .ftp
  else if t = [72, 84, 84, 80] ∨ t = httpT then .http
  else if t = [72, 84, 84, 80, 83] ∨ t = httpsT then .https
  else .none

/-- FUUri.cpp 629-632: `IsFile`. -/
def isFile (path : List Ch) : Bool := path.length > 1 && path.getLast? != some 47

/-- FUUri.cpp 207-208: `|` at index 1 or 2 becomes `:`. -/
def fixBar (path : List Ch) : List Ch :=
  if path.length > 1 ∧ path[1]? = some 124 then path.set 1 58
  else if path.length > 2 ∧ path[2]? = some 124 then path.set 2 58
  else path

/-- FUUri.cpp 187-213: query, fragment and path; `hd` is `hostDelimiterIndex`. -/
def finish (u : List Ch) (hd : Nat) (r : Uri) : Uri :=
  let q := find 63 u 0
  let f := find 35 u 0
  let query := match q with
    | none => []
    | some q => sub u (q + 1) (wsub (f.getD FStr.npos) q)
  let fragment := match f with
    | none => []
    | some f => u.drop (f + 1)
  let path := match q, f with
    | none, none => u.drop hd
    | none, some f => sub u hd (wsub f hd)
    | some q, _ => sub u hd (wsub q hd)
  let path := fixBar path
  { r with query := query, fragment := fragment, path := if isFile path then path else path ++ [47] }

/-- FUUri.cpp 160-163: skip the slashes of a networked path. -/
def skipSlashes (u : List Ch) : Nat → Nat → Nat
  | 0, hd => hd
  | fuel + 1, hd => if u.length > hd + 1 ∧ u[hd]? = some 47 then skipSlashes u fuel (hd + 1) else hd

/-- FUUri.cpp 146-153: the port and the host before it. -/
def portOf (ov : FConv.Ov) (host : List Ch) : Option (List Ch × Nat) :=
  match find 58 host 0 with
  | none => some (host, 0)
  | some i => (FConv.toInt32 ov (host.drop (i + 1) ++ [0])).map fun r => (host.take i, (r.1 % 2 ^ 32).toNat)

/-- FUUri.cpp 178-183: URIs that don't include enough slashes. -/
def finishHost (u : List Ch) (i hd : Nat) (r : Uri) : Uri :=
  if r.host.length > 1 ∧ (r.host[1]? = some 58 ∨ r.host[1]? = some 124) then finish u (i + 2) { r with host := [] }
  else finish u hd r

/-- FUUri.cpp 133-185: the host name; `i` is `schemeDelimiterIndex`, `hi` is `hostIndex`. -/
def hostPart (ov : FConv.Ov) (u : List Ch) (i hi : Nat) (r : Uri) : Option Uri :=
  if r.scheme = .none then some (finish u 0 r)
  else
    let hd := (find 47 u hi).getD u.length
    if hd > hi then
      (portOf ov (sub u hi (hd - hi))).map fun (host, port) =>
      let r := { r with host := host, port := port }
      if host = [] ∧ u.length > hd + 1 ∧ u[hd + 1]? = some 47 then
        let hd := skipSlashes u u.length hd
        match find 47 u hd with
        | none => { r with scheme := .file, path := u }
        | some rh => finishHost u i rh { r with host := sub u hd (rh - hd) }
      else finishHost u i hd r
    else some (finish u hd r)

/-- FUUri.cpp 94-115: an absolute file path and its fragment. -/
def filePath (u : List Ch) : Uri :=
  let r : Uri := { scheme := .file, delim := [58, 47, 47] }
  match find 35 u 0 with
  | none => { r with path := u }
  | some f => { r with path := u.take f, fragment := u.drop (f + 1) }

/-- FUUri.cpp 30-214: the parsing constructor, without escaping. -/
def parse (ov : FConv.Ov) (uri : List Ch) : Option Uri :=
  if uri = [] then some {}
  else
    let u := slashes uri
    match find 58 u 0 with
    | none => if u.head? = some 47 then some (filePath u) else hostPart ov u 0 0 {}
    | some i =>
      if i > 1 then hostPart ov u i (i + 3) { scheme := schemeOf (u.take i), delim := sub u i 3 }
      else hostPart ov u i 0 {}

/-- FUUri.cpp 251-257: `GetUserInformations`. -/
def userInfo (r : Uri) : List Ch :=
  if r.user = [] then [] else if r.pass = [] then r.user else r.user ++ [58] ++ r.pass

/-- FUUri.cpp 259-279: `GetAuthority`. -/
def authority (r : Uri) : List Ch :=
  (if userInfo r = [] then [] else userInfo r ++ [64]) ++ r.host ++ (if r.port = 0 then [] else 58 :: FBld.decimal r.port)

/-- FUUri.cpp 320-333 and 375-390: the scheme as text. -/
def schemeText : Scheme → List Ch
  | .none => []
  | .file => fileT
  | .ftp => ftpT
  | .http => httpT
  | .https => httpsT

/-- FUUri.cpp 281-369: `GetAbsolutePath`. -/
def absolutePath (r : Uri) : List Ch :=
  if r.scheme = .file ∧ r.host = [] then r.path
  else if r.scheme = .file ∧ r.host = [108, 111, 99, 97, 108, 104, 111, 115, 116] then slashes r.path
  else if r.scheme = .file then slashes ([92, 92] ++ authority r ++ r.path)
  else schemeText r.scheme ++ r.delim ++ authority r ++ r.path ++
    (if (r.scheme = .http ∨ r.scheme = .https) ∧ r.query ≠ [] then 63 :: r.query else [])

/-- FUUri.cpp 371-409: `GetAbsoluteUri`. -/
def absoluteUri (r : Uri) (withFragment : Bool) : List Ch :=
  schemeText r.scheme ++ r.delim ++ authority r ++ r.path ++ (if r.query ≠ [] then 63 :: r.query else []) ++
    (if withFragment ∧ r.fragment ≠ [] then 35 :: r.fragment else [])

/-- FUUri.cpp 708-726: the loop of `ExtractPathStack`. -/
def stackLoop (incl : Bool) : Nat → List Ch → Option (List (List Ch))
  | 0, _ => none
  | fuel + 1, t =>
    if t = [] then some []
    else match find 47 t 0 with
      | some 0 => stackLoop incl fuel (t.drop 1)
      | some i => (stackLoop incl fuel (t.drop (i + 1))).map (t.take i :: ·)
      | none => some (if incl then [t] else [])

/-- FUUri.cpp 699-727: `ExtractPathStack`. -/
def pathStack (name : List Ch) (incl : Bool) : Option (List (List Ch)) := stackLoop incl (name.length + 1) (slashes name)

/-- FUUri.cpp 597-609: walk the local path from the document's folder. -/
def walk : List (List Ch) → List (List Ch) → List (List Ch)
  | doc, [] => doc
  | doc, c :: rest =>
    if c = [46] then walk doc rest
    else if c = [46, 46] then walk doc.dropLast rest
    else walk (doc ++ [c]) rest

/-- FUUri.cpp 612-618: the absolute file name. -/
def joined : List (List Ch) → List Ch
  | [] => []
  | c :: rest => 47 :: c ++ joined rest

/-- FUUri.cpp 540-621: `MakeAbsolute(FUUri&)`; `b` is `this`. -/
def makeAbsUri (b uri : Uri) : Option Uri :=
  if uri.scheme ≠ .none then some uri
  else
    let r := { uri with scheme := b.scheme, delim := b.delim, host := b.host, port := b.port }
    let p := uri.path
    if (r.scheme = .file ∨ r.scheme = .none) ∧ ((p.head? = some 92 ∨ p.head? = some 47) ∨ (p.length > 1 ∧ p[1]? = some 58)) then some r
    else if b.scheme = .http ∧ p.head? = some 47 then some r
    else (pathStack b.path false).bind fun doc => (pathStack p true).map fun loc => { r with path := joined (walk doc loc) }

/-- FUUri.cpp 531-538: `MakeAbsolute(const fstring&)`. -/
def makeAbsolute (ov : FConv.Ov) (b : Uri) (rel : List Ch) : Option (List Ch) :=
  if rel = [] then some []
  else (parse ov rel).bind fun uri => (makeAbsUri b uri).map absolutePath

/-- FUUri.cpp 493-496: the number of common leading folders. -/
def common : List (List Ch) → List (List Ch) → Nat
  | a :: as, b :: bs => if a = b then common as bs + 1 else 0
  | _, _ => 0

/-- FUUri.cpp 517-520: folder names, each with a slash. -/
def folders : List (List Ch) → List Ch
  | [] => []
  | c :: rest => c ++ 47 :: folders rest

/-- FUUri.cpp 484-523: the relative path from the two stacks; `local` is not empty (`back()`). -/
def relativePath (filePath : List Ch) (doc loc : List (List Ch)) : Option (List Ch) :=
  match loc.getLast? with
  | none => none
  | some name =>
    let dirs := loc.dropLast
    let k := common doc dirs
    if k > 0 then
      some ((if doc.length > k then (List.replicate (doc.length - k) [46, 46, 47]).flatten else [46, 47]) ++ folders (dirs.drop k) ++ name)
    else some filePath

/-- FUUri.cpp 439-529: `MakeRelative`; `front()` of an empty stack is undefined. -/
def makeRelative (ov : FConv.Ov) (b : Uri) (path : List Ch) : Option (List Ch) :=
  if path = [] then some []
  else
    (makeAbsolute ov b path).bind fun abs =>
    (parse ov abs).bind fun uri =>
    if b.host ≠ uri.host then some path
    else
      (pathStack b.path false).bind fun doc => (pathStack uri.path true).bind fun loc =>
      if b.host = [] ∧ b.scheme = .file then
        match doc, loc with
        | d :: _, l :: _ => if d ≠ l then some path else (relativePath uri.path doc loc).map slashes
        | _, _ => none
      else (relativePath uri.path doc loc).map slashes

/-- FUUri.cpp 411-437: `GetRelativeUri`. -/
def relativeUri (ov : FConv.Ov) (r b : Uri) : Option (List Ch) :=
  (makeRelative ov b (absolutePath r)).map fun rel =>
  if rel ≠ [] ∧ rel.head? ≠ some 46 then absoluteUri r true
  else rel ++ (if r.query ≠ [] then 63 :: r.query else []) ++ (if r.fragment ≠ [] then 35 :: r.fragment else [])

/-- FUUri.cpp 623-627: `Resolve`. -/
def resolve (ov : FConv.Ov) (b : Uri) (rel : List Ch) : Option Uri := (makeAbsolute ov b rel).bind (parse ov)

end Verif.FUri
