import Verif.Unique
import Verif.XmlText

/-!
# Model of the object ids of a document (FCDocument/FCDObjectWithId.cpp)

Objects are numbered in the order of their creation. The dirty flags are not modelled.
-/

namespace Verif.FIds

open Verif.FStr (Ch)

/-- FCDObjectWithId.h 42, 45: `daeId` and the flag `UniqueId`. -/
structure Obj where
  id : List Ch
  unique : Bool
deriving DecidableEq

/-- A document: the unique name map (FCDocument.h 225) and its objects, `none` once destroyed. -/
structure Doc where
  names : FUniq.Names
  objs : List (Option Obj)

/-- The live object `i`. -/
def Doc.obj (d : Doc) (i : Nat) : Option Obj := (d.objs[i]?).join

/-- Store into a live object. -/
def Doc.put (d : Doc) (i : Nat) (o : Option Obj) : List (Option Obj) := d.objs.set i o

/-- FCDObjectWithId.cpp 22-27: the constructor. -/
def create (d : Doc) (base : List Ch) : Doc := { d with objs := d.objs ++ [some ⟨base, false⟩] }

/-- "unknown_object" -/
def unknownObject : List Ch := [117, 110, 107, 110, 111, 119, 110, 95, 111, 98, 106, 101, 99, 116]

/-- FCDObjectWithId.cpp 40-52: `GetDaeId`. -/
def getDaeId (d : Doc) (i : Nat) : Option (Doc × List Ch) :=
  (d.obj i).bind fun o =>
  if o.unique then some (d, o.id)
  else
    (FUniq.insert d.names (if o.id = [] then unknownObject else o.id)).map fun r => (⟨r.1, d.put i (some ⟨r.2, true⟩)⟩, r.2)

/-- FCDObjectWithId.cpp 72-81: `RemoveDaeId`. -/
def removeDaeId (d : Doc) (i : Nat) : Option Doc :=
  (d.obj i).bind fun o =>
  if o.unique then (FUniq.erase d.names o.id).map fun m => ⟨m, d.put i (some ⟨o.id, false⟩)⟩ else some d

/-- FCDObjectWithId.h 100: `CleanId(const fm::string&)`, as a text. -/
def cleanId (t : List Ch) : Option (List Ch) := ((FXml.clean true (t ++ [0])).bind FStr.cStr).map (·.takeWhile (· ≠ 0))

/-- FCDObjectWithId.cpp 54-64: `SetDaeId`. -/
def setDaeId (d : Doc) (i : Nat) (id : List Ch) : Option Doc :=
  (removeDaeId d i).bind fun d => (cleanId id).bind fun c => (FUniq.insert d.names c).map fun r => ⟨r.1, d.put i (some ⟨r.2, true⟩)⟩

/-- FCDObjectWithId.cpp 29-32: the destructor. -/
def destroy (d : Doc) (i : Nat) : Option Doc := (removeDaeId d i).map fun d => { d with objs := d.put i none }

/-- FCDObjectWithId.cpp 34-38: `Clone`: object `i` into object `j`; the original loses its id. -/
def clone (d : Doc) (i j : Nat) : Option Doc :=
  (d.obj i).bind fun o => (d.obj j).bind fun c => removeDaeId { d with objs := d.put j (some { c with id := o.id }) } i

end Verif.FIds
