/-!
# Model of the linking of placeholders to loaded documents (FColladaPlugins/FArchiveXML/FAXEntityImport.cpp, FCDocument/FCDPlaceHolder.cpp)

The open documents are a list; a document is known by its position there. `register` has all of them as the result of `FCollada::GetAllDocuments`, which is so if all are top documents (`all_documents`). Urls are of any type with equality. Messages, dirty flags and the tracking of targets are left out.
-/

namespace Verif.FReg

/-- A placeholder: the url of the file that it stands for and the document that it has, if any. -/
structure Holder (U : Type) where
  url : U
  target : Option Nat
  deriving DecidableEq

/-- A document: the url of its file and its placeholders. -/
structure Doc (U : Type) where
  url : U
  holders : List (Holder U)
  deriving DecidableEq

variable {U : Type} [DecidableEq U]

/-- FCDPlaceHolder.cpp 63-109: `LoadTarget` with a document: it is taken if there is none yet. -/
def loadTarget (p : Holder U) (d : Nat) : Holder U := if p.target = none then { p with target := some d } else p

/-- FAXEntityImport.cpp 278-283: a placeholder of another document. -/
def offer (url : U) (d : Nat) (p : Holder U) : Holder U := if p.url = url then loadTarget p d else p

/-- FAXEntityImport.cpp 289-298: a placeholder of the new document is offered all documents. -/
def offerAll (docs : List (Doc U)) (p : Holder U) : Holder U := docs.zipIdx.foldl (fun p x => offer x.1.url x.2 p) p

/-- FAXEntityImport.cpp 268-299: `RegisterLoadedDocument` for the document at `d`, with its url. -/
def register (docs : List (Doc U)) (d : Nat) (url : U) : List (Doc U) :=
  docs.zipIdx.map fun x => if x.2 = d then { x.1 with holders := x.1.holders.map (offerAll docs) } else { x.1 with holders := x.1.holders.map (offer url d) }

/-- FArchiveXML.cpp 796: a document is opened and registered. -/
def openDoc (docs : List (Doc U)) (n : Doc U) : List (Doc U) := register (docs ++ [n]) docs.length n.url

/-- FCollada.cpp 94-100: the documents of the placeholders of a top document are added. -/
def addTargets (docs : List (Doc U)) (found : List Nat) (t : Nat) : List Nat :=
  (((docs[t]?).map (·.holders)).getD []).foldl (fun l p => match p.target with
    | none => l
    | some d => if d ∈ l then l else l ++ [d]) found

/-- FCollada.cpp 85-102: `GetAllDocuments`: the top documents, and those that their placeholders have. -/
def allDocs (docs : List (Doc U)) (tops : List Nat) : List Nat := tops.foldl (addTargets docs) tops

end Verif.FReg
