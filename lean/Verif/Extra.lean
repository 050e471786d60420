import Verif.Str

/-!
# Model of the extra trees (FCDocument/FCDExtra.h, FCDExtra.cpp)

Names, contents and values are texts without a zero character. The animated values of the nodes, the plug-in objects of the techniques, parent pointers and the flags of changed objects are left
out. A released object leaves the container that owns it (C32), so the objects of a tree are known by their positions.
-/

namespace Verif.FExtra

open Verif.FStr (Ch)

abbrev Text := List Ch

/-- FCDExtra.h 491-523: an attribute. -/
structure Attr where
  name : Text
  value : Text
deriving DecidableEq

/-- FCDExtra.h 221-236: a node of an extra tree. -/
inductive Node where
  | mk (name content : Text) (attrs : List Attr) (children : List Node)

namespace Node

/-- FCDExtra.h 248: `GetName`. -/
def name : Node → Text | .mk n _ _ _ => n

/-- FCDExtra.cpp 277-280: `GetContent`. -/
def content : Node → Text | .mk _ c _ _ => c

/-- FCDExtra.h 368-374: the attributes. -/
def attrs : Node → List Attr | .mk _ _ a _ => a

/-- FCDExtra.h 308-314: the child nodes. -/
def children : Node → List Node | .mk _ _ _ cs => cs

end Node

/-- FCDExtra.cpp 173-182: a new node. -/
def blank : Node := .mk [] [] [] []

/-! ## Names -/

/-- FCDExtra.cpp 261: the characters allowed at the start. -/
def startChar (c : Int) : Bool := c = 95 ∨ (97 ≤ c ∧ c ≤ 122) ∨ (65 ≤ c ∧ c ≤ 90)

/-- FCDExtra.cpp 270: the characters allowed elsewhere. -/
def otherChar (c : Int) : Bool := c = 95 ∨ (97 ≤ c ∧ c ≤ 122) ∨ (65 ≤ c ∧ c ≤ 90) ∨ (48 ≤ c ∧ c ≤ 57)

/-- FCDExtra.cpp 255-275: `CleanName`. -/
def cleanName : Text → Text
  | [] => []
  | c :: cs => (if startChar c then c else 95) :: cs.map fun c => if otherChar c then c else 95

/-! ## Nodes -/

/-- FCDExtra.cpp 248-253: `SetName`. -/
def setName (t : Text) : Node → Node | .mk _ c a cs => .mk (cleanName t) c a cs

/-- FCDExtra.cpp 189-199: `SetContent`; the children are released. -/
def setContent (t : Text) : Node → Node | .mk n _ a _ => .mk n t a []

/-- FCDExtra.h 279: `SetContentDirect`. -/
def setContentDirect (t : Text) : Node → Node | .mk n _ a cs => .mk n t a cs

/-- FCDExtra.cpp 349-355: `AddChildNode`. -/
def addChildNode : Node → Node | .mk n c a cs => .mk n c a (cs ++ [blank])

/-- FCDExtra.cpp 357-364: `AddChildNode` with a name. -/
def addChildNamed (t : Text) : Node → Node | .mk n c a cs => .mk n c a (cs ++ [setName t blank])

/-- FCDExtra.cpp 315-322: `AddParameter`. -/
def addParameter (t v : Text) : Node → Node | .mk n c a cs => .mk n c a (cs ++ [setContent v (setName t blank)])

/-- FCDExtra.cpp 300-307: `FindAttribute`: the position of the first attribute with the name. -/
def findAttribute (as : List Attr) (t : Text) : Option Nat := as.findIdx? fun x => x.name = t

/-- FCDExtra.cpp 309-313: `ReadAttribute`. -/
def readAttribute (as : List Attr) (t : Text) : Text :=
  match findAttribute as t with
  | some i => match as[i]? with
    | some x => x.value
    | none => []
  | none => []

/-- FCDExtra.cpp 283-297: `AddAttribute` on the list of attributes. -/
def putAttribute (as : List Attr) (t v : Text) : List Attr :=
  match findAttribute as (cleanName t) with
  | some i => as.modify i fun x => { x with value := v }
  | none => as ++ [⟨cleanName t, v⟩]

/-- FCDExtra.cpp 283-297: `AddAttribute`. -/
def addAttribute (t v : Text) : Node → Node | .mk n c a cs => .mk n c (putAttribute a t v) cs

/-- FCDExtra.cpp 208-215, 225-233: `FindChildNode` and `FindParameter`, which are the same: the position of the first child with the name. -/
def findChildNode (n : Node) (t : Text) : Option Nat := n.children.findIdx? fun x => x.name = t

/-- FCDExtra.cpp 217-223: `FindChildrenNodes`: the nodes added to the list. -/
def findChildrenNodes (n : Node) (t : Text) : List Node := n.children.filter fun x => x.name = t

/-- FCDExtra.cpp 235-246: `FindParameters`: the nodes and names added to the lists. -/
def findParameters (n : Node) : List (Node × Text) := (n.children.filter fun x => x.children.length = 0).map fun x => (x, x.name)

mutual
/-- FCDExtra.cpp 324-347: `FCDENode::Clone` of the first node into the second. -/
def cloneNode : Node → Node → Node
  | .mk n c as cs, .mk _ _ tas tcs => .mk n c (as.foldl (fun l x => putAttribute l x.name x.value) tas) (tcs ++ cloneNodes cs)
/-- FCDExtra.cpp 337-342: the new children of the clone. -/
def cloneNodes : List Node → List Node
  | [] => []
  | x :: xs => cloneNode x blank :: cloneNodes xs
end

/-! ## Techniques, types and extras -/

/-- FCDExtra.h 439-447: a technique, which is a node with a profile. -/
structure Tech where
  profile : Text
  node : Node

/-- FCDExtra.h 126-137: a type. -/
structure EType where
  name : Text
  techs : List Tech

/-- FCDExtra.h 42-51: an extra: its types. -/
abbrev Extra := List EType

/-- FCDExtra.cpp 25-33: a new extra, with the default type. -/
def newExtra : Extra := [⟨[], []⟩]

/-- FCDExtra.cpp 55-62: `FindType`. -/
def findType (e : Extra) (t : Text) : Option Nat := e.findIdx? fun x => x.name = t

/-- FCDExtra.cpp 41-52: `AddType`: the extra and the position of the type. -/
def addType (e : Extra) (t : Text) : Extra × Nat :=
  match findType e t with
  | some i => (e, i)
  | none => (e ++ [⟨t, []⟩], e.length)

/-- FCDExtra.cpp 64-77: `HasContent`. -/
def hasContent (e : Extra) : Bool := e.any fun t => t.techs.any fun x => decide (x.node.children.length > 0)

/-- FCDExtra.cpp 126-133: `FindTechnique`. -/
def findTechnique (ts : List Tech) (p : Text) : Option Nat := ts.findIdx? fun x => x.profile = p

/-- FCDExtra.cpp 113-123: `AddTechnique`: the techniques and the position. -/
def addTechnique (ts : List Tech) (p : Text) : List Tech × Nat :=
  match findTechnique ts p with
  | some i => (ts, i)
  | none => (ts ++ [⟨p, blank⟩], ts.length)

/-- FCDExtra.cpp 136-145: `FindRootNode`: the positions of the technique and of its child. -/
def findRootNode : List Tech → Text → Option (Nat × Nat)
  | [], _ => none
  | x :: xs, t => match findChildNode x.node t with
    | some j => some (0, j)
    | none => (findRootNode xs t).map fun r => (r.1 + 1, r.2)

/-- FCDExtra.cpp 382-395: `FCDETechnique::Clone` into a technique. -/
def cloneTech (s t : Tech) : Tech := ⟨s.profile, cloneNode s.node t.node⟩

/-- FCDExtra.cpp 147-162: `FCDEType::Clone`: the techniques of the clone. -/
def cloneTechs (s t : List Tech) : List Tech :=
  s.foldl (fun ts x => let r := addTechnique ts x.profile; r.1.modify r.2 (cloneTech x)) t

/-- FCDExtra.cpp 79-91: `FCDExtra::Clone` into an extra. -/
def cloneInto (s t : Extra) : Extra :=
  s.foldl (fun e x => let r := addType e x.name; r.1.modify r.2 fun y => { y with techs := cloneTechs x.techs y.techs }) t

/-- FCDExtra.cpp 79-91: `FCDExtra::Clone`; without a clone, a new extra. -/
def cloneExtra (s : Extra) : Option Extra → Extra
  | none => cloneInto s newExtra
  | some t => cloneInto s t

/-! ## Histories -/

/-- A call for a node. -/
inductive NodeOp where
  | setName (t : Text)
  | setContent (t : Text)
  | setContentDirect (t : Text)
  | addChild
  | addChildNamed (t : Text)
  | addParameter (t v : Text)
  | addAttribute (t v : Text)
  /-- FCDExtra.h 522: `SetValue` of an attribute. -/
  | setValue (i : Nat) (v : Text)
  /-- FCDExtra.h 514: `SetName` of an attribute. -/
  | setAttrName (i : Nat) (t : Text)
  | releaseAttr (i : Nat)
  | releaseChild (i : Nat)

/-- The call for a node. -/
def runNode : NodeOp → Node → Node
  | .setName t, n => setName t n
  | .setContent t, n => setContent t n
  | .setContentDirect t, n => setContentDirect t n
  | .addChild, n => addChildNode n
  | .addChildNamed t, n => addChildNamed t n
  | .addParameter t v, n => addParameter t v n
  | .addAttribute t v, n => addAttribute t v n
  | .setValue i v, .mk n c a cs => .mk n c (a.modify i fun x => { x with value := v }) cs
  | .setAttrName i t, .mk n c a cs => .mk n c (a.modify i fun x => { x with name := t }) cs
  | .releaseAttr i, .mk n c a cs => .mk n c (a.eraseIdx i) cs
  | .releaseChild i, .mk n c a cs => .mk n c a (cs.eraseIdx i)

/-- The call for the node at the end of a path of positions of children; if there is no such node, nothing happens. -/
def atPath (f : Node → Node) : List Nat → Node → Node
  | [], n => f n
  | i :: p, .mk n c a cs => .mk n c a (cs.modify i (atPath f p))

/-- A call for an extra tree or one of its parts. -/
inductive Op where
  | addType (t : Text)
  /-- FCDExtra.h 159: `SetName` of a type. -/
  | setTypeName (i : Nat) (t : Text)
  | releaseType (i : Nat)
  | addTechnique (i : Nat) (p : Text)
  /-- FCDExtra.h 467: `SetProfile`. -/
  | setProfile (i j : Nat) (p : Text)
  | releaseTechnique (i j : Nat)
  | node (i j : Nat) (path : List Nat) (op : NodeOp)

/-- The call. -/
def run (e : Extra) : Op → Extra
  | .addType t => (addType e t).1
  | .setTypeName i t => e.modify i fun x => { x with name := t }
  | .releaseType i => e.eraseIdx i
  | .addTechnique i p => e.modify i fun x => { x with techs := (addTechnique x.techs p).1 }
  | .setProfile i j p => e.modify i fun x => { x with techs := x.techs.modify j fun y => { y with profile := p } }
  | .releaseTechnique i j => e.modify i fun x => { x with techs := x.techs.eraseIdx j }
  | .node i j path op => e.modify i fun x => { x with techs := x.techs.modify j fun y => { y with node := atPath (runNode op) path y.node } }

end Verif.FExtra
