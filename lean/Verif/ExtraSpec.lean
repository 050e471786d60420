import Verif.Extra

/-!
# C92-C94: names, contents and clones of extra trees
-/

namespace Verif.FExtra

open Verif.FStr (Ch)

/-- Letters, without accents. -/
def Letter (c : Int) : Prop := ∃ k : Nat, k < 26 ∧ (c = 97 + k ∨ c = 65 + k)

/-- Decimal digits. -/
def Digit (c : Int) : Prop := ∃ k : Nat, k < 10 ∧ c = 48 + k

/-- A name of an element or attribute as documented at FCDExtra.h 257-261: it starts with a letter or an underscore and contains letters, digits and underscores. -/
def ValidName (t : Text) : Prop := (∃ c, t.head? = some c ∧ (Letter c ∨ c = 95)) ∧ ∀ c ∈ t, Letter c ∨ Digit c ∨ c = 95

/-- Some attribute has this name and this value. -/
def HasAttr (as : List Attr) (t v : Text) : Prop := ∃ a ∈ as, a.name = t ∧ a.value = v

/-- The nodes of a tree: the node itself and those below it. -/
inductive Within : Node → Node → Prop where
  | here (n : Node) : Within n n
  | deeper {n m c : Node} : c ∈ n.children → Within c m → Within n m

/-- The names and attributes of a node alone: the names of the node and of its attributes are valid or empty, and no two attributes have the same name. -/
def GoodHere (n : Node) : Prop :=
  (n.name = [] ∨ ValidName n.name) ∧ (∀ a ∈ n.attrs, a.name = [] ∨ ValidName a.name) ∧ (n.attrs.map (·.name)).Nodup

/-- The nodes of a whole extra. -/
def NodeOf (e : Extra) (n : Node) : Prop := ∃ t ∈ e, ∃ x ∈ t.techs, Within x.node n

/-- An extra in order: its types have different names, the techniques of each type have different profiles, and all its nodes are good. -/
def Good (e : Extra) : Prop :=
  (e.map (·.name)).Nodup ∧ (∀ t ∈ e, (t.techs.map (·.profile)).Nodup) ∧ ∀ n, NodeOf e n → GoodHere n

/-- A call for a node, other than `SetName` of an attribute. -/
def NodeOp.Tame : NodeOp → Prop
  | .setAttrName _ _ => False
  | _ => True

/-- A call other than `SetName` of an attribute or type and `SetProfile`. -/
def Op.Tame : Op → Prop
  | .setTypeName _ _ => False
  | .setProfile _ _ _ => False
  | .node _ _ _ op => op.Tame
  | _ => True

/-- The node at the end of a path. -/
def nodeAt : List Nat → Node → Option Node
  | [], n => some n
  | i :: p, n => (n.children[i]?).bind (nodeAt p)

/-- A node has content and child nodes. -/
def Mixed (n : Node) : Prop := n.content ≠ [] ∧ n.children ≠ []

/-- A call that gives child nodes only to nodes without content, and content only to nodes without child nodes unless it is made by `SetContent`. -/
def NodeOp.Careful (n : Node) : NodeOp → Prop
  | .addChild => n.content = []
  | .addChildNamed _ => n.content = []
  | .addParameter _ _ => n.content = []
  | .setContentDirect _ => n.children = []
  | _ => True

/-- The same for a call for an extra. -/
def Op.Careful (e : Extra) : Op → Prop
  | .node i j path op => ∀ (t : EType) (x : Tech) (n : Node), e[i]? = some t → t.techs[j]? = some x → nodeAt path x.node = some n → op.Careful n
  | _ => True

/-- The extras after any number of calls, started with a new extra. -/
inductive Reach (ok : Extra → Op → Prop) : Extra → Prop where
  | new : Reach ok newExtra
  | step {e : Extra} (op : Op) : Reach ok e → ok e op → Reach ok (run e op)

end Verif.FExtra
