/-!
# Model of the sorted insertion of XML children (FUtils/FUXmlWriter.cpp 218-252)

The children of an XML node are a list. libxml2 is trusted: `xmlAddNextSibling` and `xmlAddPrevSibling` put an element behind or before a node,
`xmlAddChild` puts it at the end (an element is never merged with a text node). `α` is what else there is to a node.
-/

namespace Verif.XmlSort

/-- A child of an XML node: whether it is an element (not a text, comment or other node), its name as bytes, and its contents. -/
structure Node (α : Type) where
  elem : Bool
  name : List Nat
  data : α
deriving DecidableEq

/-- FUXmlWriter.cpp 228: `strcmp(a, b) <= 0`; the bytes are compared unsigned, and a string that ends is before one that goes on. -/
def strLe : List Nat → List Nat → Bool
  | [], _ => true
  | _ :: _, [] => false
  | a :: as, b :: bs => if a = b then strLe as bs else a < b

/-- FUXmlWriter.cpp 225-233: the walk from the last child backwards; `rev` is what has not been passed, the last child first, and `post` what has.
`none` if no place was found. -/
def walk {α : Type} (child : Node α) : List (Node α) → List (Node α) → Option (List (Node α))
  | [], _ => none
  | p :: rev, post =>
    if p.elem = false then walk child rev (p :: post)
    else if strLe p.name child.name then some (rev.reverse ++ p :: child :: post)
    else walk child rev (p :: post)

/-- FUXmlWriter.cpp 236-243: the child goes to the top, if the first child is an element, or to the end. -/
def addTop {α : Type} (children : List (Node α)) (child : Node α) : List (Node α) :=
  match children with
  | [] => [child]
  | p :: _ => if p.elem then child :: children else children ++ [child]

/-- FUXmlWriter.cpp 219-244: `AddChildSorted`. -/
def addChildSorted {α : Type} (children : List (Node α)) (child : Node α) : List (Node α) :=
  match walk child children.reverse [] with
  | some l => l
  | none => addTop children child

end Verif.XmlSort
