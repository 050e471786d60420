import Verif.Path
import Verif.UriProps

/-!
# Specification of paths and of the stack of root paths (C46)
-/

namespace Verif.FPath

open Verif.FStr (Ch)
open Verif.FUri

/-- A name has no separator, `/` or `\`. -/
def Plain (name : List Ch) : Prop := 47 ∉ name ∧ 92 ∉ name

/-- A folder ends with a separator. -/
def Folder (dir : List Ch) : Prop := ∃ d, dir = d ++ [47] ∨ dir = d ++ [92]

/-- The letters `A` to `Z` in lower case, everything else unchanged. -/
def lower (t : List Ch) : List Ch := t.map fun c => if 65 ≤ c ∧ c ≤ 90 then c + 32 else c

/-- Histories in which every call that pushes is followed by its own pop. -/
inductive Nested : List Call → Prop
  | nil : Nested []
  | path (p : List Ch) {inner rest : List Call} : Nested inner → Nested rest → Nested (.pushPath p :: inner ++ .pop :: rest)
  | file (f : List Ch) {inner rest : List Call} : Nested inner → Nested rest → Nested (.pushFile f :: inner ++ .pop :: rest)

/-- The URI of the folder `/d1/d2/.../` on the local file system. -/
def folderUri (folders : List (List Ch)) : Uri := { scheme := .file, delim := [58, 47, 47], path := abs folders ++ [47] }

/-- The relative path `f1/f2/.../name`. -/
def down (folders : List (List Ch)) (name : List Ch) : List Ch := (folders.map (· ++ [47])).flatten ++ name

end Verif.FPath
