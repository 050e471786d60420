import Verif.Arc

/-!
# Model of the records that an import keeps for linking (FArchiveXML.cpp 374-448, 538-564, 668, 800; FCDPlaceHolder.cpp 63-108)

`documentLinkDataMap` is one map for the whole process: loading an object notes a record (`note`), linking it reads the record (`need`). Reading a
record that is not there dereferences the end of a map: the assertions that guard it have no fall-back (for example FAXImportLinking.cpp 344-346,
473-475, 543-545; there is not even an assertion in FArchiveXML.cpp 766-767, 776-777 and FAXInstanceImport.cpp 383).
A file is the list of the steps of its import; what the records contain is not modelled. Loading needs fuel, since files may refer to each other.
Simplified: the documents are told apart by their files, a record is named by the file and a number, URLs of files are compared as given,
documents that are already completely loaded are not listed (no step of theirs is to come).
-/

namespace Verif.FLinkData

/-- One step of an import: a record is noted for the object `o` of the document; the record of the object `o` of the document of `f` is read;
an entity of the file `f` is referred to; and its entity is asked for, which loads the file. -/
inductive Step where
  | note (o : Nat)
  | need (f o : Nat)
  | mention (f : Nat)
  | fetch (f : Nat)
deriving DecidableEq

/-- What is in a file: not XML, another root element than `COLLADA`, an import that is cancelled after some steps, or a whole import
with the status that it returns. -/
inductive File where
  | broken
  | foreign
  | cancelled (steps : List Step)
  | whole (status : Bool) (steps : List Step)
deriving DecidableEq

/-- The static members of FArchiveXML and the placeholders of the documents whose import is in progress, innermost first. -/
structure St where
  /-- `loadedDocumentCount` -/
  count : Nat
  /-- `documentLinkDataMap` -/
  data : List (Nat × Nat)
  /-- The placeholders of a document: their file and whether they have a target. -/
  open_ : List (List (Nat × Bool))
deriving DecidableEq

/-- The outcome: a state and the status, undefined behaviour, or out of fuel. -/
inductive Out where
  | ok (s : St) (status : Bool)
  | ub
  | fuel
deriving DecidableEq

/-- FCDEntityReference.cpp 72-82 with FCDExternalReferenceManager.cpp 31-48: a placeholder for the file, unless there is one. -/
def mention (f : Nat) (ps : List (Nat × Bool)) : List (Nat × Bool) := if ps.any (fun p => p.1 == f) then ps else ps ++ [(f, false)]

/-- FCDExternalReferenceManager.cpp 70-82: the placeholders for the file get the document. -/
def register (f : Nat) (ps : List (Nat × Bool)) : List (Nat × Bool) := ps.map fun p => if p.1 = f then (f, true) else p

/-- FCDPlaceHolder.cpp 57-61: the placeholder has a target. -/
def hasTarget (f : Nat) (ps : List (Nat × Bool)) : Bool := ps.any fun p => p.1 == f && p.2

/-- The innermost document changes its placeholders. -/
def onTop (g : List (Nat × Bool) → List (Nat × Bool)) : List (List (Nat × Bool)) → List (List (Nat × Bool))
  | [] => []
  | ps :: r => g ps :: r

/-- The steps of an import of the document of `me`, with `load` for the files that it fetches. FCDPlaceHolder.cpp 63-108: a file is loaded unless
the placeholder has a target; a document whose import failed is deleted. -/
def steps (load : Nat → St → Out) (me : Nat) : List Step → St → Out
  | [], s => .ok s true
  | .note o :: r, s => steps load me r { s with data := (me, o) :: s.data }
  | .need f o :: r, s => if (f, o) ∈ s.data then steps load me r s else .ub
  | .mention f :: r, s => steps load me r { s with open_ := onTop (mention f) s.open_ }
  | .fetch f :: r, s =>
    let t : St := { s with open_ := onTop (mention f) s.open_ }
    if hasTarget f (t.open_.headD []) then steps load me r t
    else match load f t with
      | .ok u ok => steps load me r (if ok then { u with open_ := u.open_.map (register f) } else u)
      | o => o

/-- FArchiveXML.cpp 555-557: the entry of `Import`. -/
def enter (s : St) : St := { count := s.count + 1, data := if s.count = 0 then [] else s.data, open_ := [] :: s.open_ }

/-- FArchiveXML.cpp 404, 438: the document is done, the records of all documents are cleared. -/
def leave (s : St) : St := { s with data := [], open_ := s.open_.tail }

/-- FArchiveXML.cpp 379-413 (and 415-448): `ImportFile` with `Import`. A file with another root element (559-564) and a cancelled import (668) return
without the decrement of 800. -/
def importFile (files : Nat → File) : Nat → Nat → St → Out
  | 0, _, _ => .fuel
  | n + 1, f, s => match files f with
    | .broken => .ok { s with data := [] } false
    | .foreign => .ok (leave (enter s)) false
    | .cancelled l => match steps (importFile files n) f l (enter s) with
      | .ok u _ => .ok (leave u) false
      | o => o
    | .whole status l => match steps (importFile files n) f l (enter s) with
      | .ok u _ => .ok (leave { u with count := u.count - 1 }) status
      | o => o

/-- FArchiveXML.cpp 537-544: `ImportObject`: the records are cleared if no import is in progress. -/
def importObject (f : Nat) (notes : List Nat) (s : St) : St :=
  let data := notes.foldl (fun d o => (f, o) :: d) s.data
  { s with data := if s.count = 0 then [] else data }

end Verif.FLinkData
