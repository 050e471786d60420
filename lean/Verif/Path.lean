import Verif.Uri

/-!
# Model of the path helpers of `FUFileManager` (FUtils/FUFileManager.cpp), non-WIN32

Texts hold no 0 character. `none` is undefined behaviour. `MAX_PATH` is 1024 (Platforms.h 204-206). A pointer into the local buffer is the index it points to,
`NULL` is `none` and compares below all of them. `forceAbsolute` and the initial path, which the constructor takes from the system, are parameters.
-/

namespace Verif.FPath

open Verif.FStr (Ch)
open Verif.FUri

/-- `strrchr`: the index of the last occurrence. -/
def lastIndex (c : Ch) : List Ch → Option Nat
  | [] => none
  | x :: t => match lastIndex c t with
    | some i => some (i + 1)
    | none => if x = c then some 0 else none

/-- FUFileManager.cpp 263 and 280: `max` of two pointers. -/
def later : Option Nat → Option Nat → Option Nat
  | none, b => b
  | a, none => a
  | some a, some b => some (max a b)

/-- FUFileManager.cpp 261-263: the last separator. -/
def lastSlash (t : List Ch) : Option Nat := later (lastIndex 47 t) (lastIndex 92 t)

/-- FUFileManager.cpp 256-266: `StripFileFromPath`; `strncpy` copies at most `MAX_PATH` characters. -/
def stripFile (filename : List Ch) : List Ch :=
  match lastSlash (filename.take 1024) with
  | none => filename.take 1024
  | some i => (filename.take 1024).take (i + 1)

/-- `tolower` in the "C" locale: undefined for negative values other than `EOF`. -/
def toLower (c : Ch) : Option Ch :=
  if c < -1 then none
  else if 65 ≤ c ∧ c ≤ 90 then some (c + 32)
  else some c

/-- FUFileManager.cpp 281: `lastSlash > lastPeriod`. -/
def slashAfter : Option Nat → Nat → Bool
  | none, _ => false
  | some s, p => p < s

/-- FUFileManager.cpp 269-285: `GetFileExtension`; Platforms.h 111: `strlower`. -/
def extension (filename : List Ch) : Option (List Ch) :=
  match lastIndex 46 (filename.take 1023) with
  | none => some []
  | some p => if slashAfter (lastSlash (filename.take 1023)) p then some [] else ((filename.take 1023).drop (p + 1)).mapM toLower

/-- FUFileManager.cpp 422-429: `GetFolderFromPath`. -/
def folderOf (path : List Ch) : List Ch :=
  if (stripFile path).getLast? = some 92 ∨ (stripFile path).getLast? = some 47 then (stripFile path).dropLast else stripFile path

/-- FUFileManager.cpp 124: the slash at the end of a root path. -/
def endSlash (t : List Ch) : List Ch := if t ≠ [] ∧ t.getLast? ≠ some 92 ∧ t.getLast? ≠ some 47 then t ++ [47] else t

/-- FUFileManager.cpp 121-126: `PushRootPath`; the stack grows at the end of the list, `back()` of an empty one is undefined. -/
def pushPath (ov : FConv.Ov) (stack : List Uri) (path : List Ch) : Option (List Uri) :=
  stack.getLast?.bind fun cur => (makeAbsolute ov cur path).bind fun a => (parse ov (endSlash a)).map fun u => stack ++ [u]

/-- FUFileManager.cpp 129-135 and 147-150: `PopRootPath`, `PopRootFile`. -/
def pop (stack : List Uri) : List Uri := if stack.length > 1 then stack.dropLast else stack

/-- FUFileManager.cpp 138-145: `PushRootFile`. -/
def pushFile (ov : FConv.Ov) (stack : List Uri) (filename : List Ch) : Option (List Uri) :=
  stack.getLast?.bind fun cur => (makeAbsolute ov cur filename).bind fun f => pushPath ov stack (stripFile f)

/-- FUFileManager.cpp 287-294: `CleanUri`. -/
def cleanUri (ov : FConv.Ov) (stack : List Uri) (forceAbsolute : Bool) (uri : Uri) : Option (List Ch) :=
  if uri.scheme = .none then some (35 :: uri.fragment)
  else if forceAbsolute then some (absoluteUri uri true)
  else stack.getLast?.bind fun cur => relativeUri ov uri cur

/-- The calls that change the stack. -/
inductive Call where
  | pushPath (path : List Ch)
  | pushFile (filename : List Ch)
  | pop
deriving DecidableEq, Repr

/-- One call. -/
def call (ov : FConv.Ov) (stack : List Uri) : Call → Option (List Uri)
  | .pushPath p => pushPath ov stack p
  | .pushFile f => pushFile ov stack f
  | .pop => some (FPath.pop stack)

/-- A history of calls. -/
def calls (ov : FConv.Ov) : List Uri → List Call → Option (List Uri)
  | stack, [] => some stack
  | stack, c :: rest => (call ov stack c).bind fun s => calls ov s rest

end Verif.FPath
