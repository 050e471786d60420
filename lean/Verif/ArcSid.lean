import Verif.Arc

/-!
# Model of the sub-ids of written elements (FArchiveXML/FAXColladaWriter.cpp, FAXColladaParser.cpp)

`AddNodeSid` gives an element a sub-id that no element in the same scope has: the scope is the nearest element around it with an id or a sub-id. The tree is the one written so far, with the new element
in it; `up` are the element and the elements around it, from the inside out.
-/

namespace Verif.FArc

open Verif.FEff (Text text)

mutual
/-- FAXColladaParser.cpp 61-75: `FindHierarchyChildBySid`: whether an element is found. -/
def findSid (sid : Text) : Node → Option Bool
  | .elem n as t ks => (prop (some (.elem n as t ks)) (text "sid")).bind fun s => if s = sid then some true else findSids sid ks
/-- FAXColladaParser.cpp 67-73: the loop over the children. -/
def findSids (sid : Text) : List Node → Option Bool
  | [] => some false
  | k :: ks => (findSid sid k).bind fun b => if b then some true else findSids sid ks
end

/-- FAXColladaWriter.cpp 372: the element has an id or a sub-id. -/
def isScope (n : Node) : Bool := n.has (text "id") || n.has (text "sid")

/-- FAXColladaWriter.cpp 368-383: the element in which the sub-id must be unique, for an element that has neither id nor sub-id; the outermost one if none has. -/
def scopeOf (around : List Node) : Option Node := (around.find? isScope).or around.getLast?

/-- FAXColladaWriter.cpp 394-404: the loop over the numbers: the attribute added, if one is, and the text returned. -/
def trySids (scope : Node) (wanted : Text) : List Nat → Option (Option Text × Text)
  | [] => some (none, [])
  | c :: cs => (findSid (wanted ++ natText c) scope).bind fun b => if b then trySids scope wanted cs else some (some (wanted ++ natText c), wanted ++ natText c)

/-- FAXColladaWriter.cpp 366-405: `AddNodeSid`: the attribute added, if one is, and the text returned; `up` are the element and the elements around it. -/
def addNodeSid (up : List Node) (wanted : Text) : Option (Option Text × Text) :=
  match up with
  | [] => none
  | node :: around =>
    if isScope node then some (if node.has (text "sid") then none else some wanted, wanted)
    else (scopeOf (node :: around)).bind fun scope => (findSid wanted scope).bind fun b =>
      if b then trySids scope wanted (List.range' 2 98) else some (some wanted, wanted)

end Verif.FArc
