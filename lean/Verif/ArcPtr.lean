import Verif.Arc

/-!
# Model of the addresses of animated elements (FColladaPlugins/FArchiveXML/FAXColladaParser.cpp 444-493)

An element in a file is given by its place: the numbers of the children to follow from the root. The document node of libxml2 above the root has no attributes, and is the last of the parents.
-/

namespace Verif.FArc

open Verif.FEff (Text text)

/-- The document node above the root: `xmlHasProp` and `xmlGetProp` find nothing on a node that is no element. -/
def docNode : Node := .elem [] [] [] []

/-- FAXColladaParser.cpp 464-470: the parents up to the first with an id. -/
def climb : List Node → List Node
  | [] => []
  | n :: up => n :: if n.has (text "id") then [] else climb up

/-- FAXColladaParser.cpp 480-488: the sub id of one of the elements is appended. -/
def appendSid (t : Text) (n : Node) : Option Text :=
  (prop (some n) (text "sid")).map fun s => if s = [] then t else t ++ 47 :: s

/-- FAXColladaParser.cpp 473-490: the address built from the elements found, the target first. -/
def buildPointer (tr : List Node) : Option Text :=
  (prop tr.getLast? (text "id")).bind fun i => if i = [] then some [] else tr.dropLast.reverse.foldlM appendSid i

/-- FAXColladaParser.cpp 444-493: `CalculateNodeTargetPointer` of an element with the parents `up`, the nearest first. Left out: the target `NULL`, which has the empty address. -/
def targetPointer (target : Node) (up : List Node) : Option Text :=
  if target.has (text "id") then prop (some target) (text "id")
  else if target.has (text "sid") then buildPointer (target :: climb up)
  else some []

/-- The element at a place, and its parents, the nearest first: `node->parent` of libxml2. -/
def parentsAt (n : Node) (up : List Node) : List Nat → Option (Node × List Node)
  | [] => some (n, up)
  | i :: p => n.kids[i]?.bind fun k => parentsAt k (n :: up) p

/-- The address of the element at a place of a file. -/
def pointerAt (root : Node) (p : List Nat) : Option Text := (parentsAt root [docNode] p).bind fun x => targetPointer x.1 x.2

end Verif.FArc
