import Verif.ArcScene
import Verif.ArcTransSpec
import Verif.ArcEntitySpec

/-! # What scene nodes should be after saving and loading -/

namespace Verif.FArc

open Verif.FEff (Text text)
open Verif.FConv (Ov DateTime)

/-- The nodes written in full, in the order of their elements. -/
def SNode.ids : SNode → List Text
  | .link _ => []
  | .own h ks => h.ent.id :: idsAll ks
where
  /-- Those of a list. -/
  idsAll : List SNode → List Text
    | [] => []
    | k :: ks => k.ids ++ idsAll ks

/-- The links among the children. -/
def linksOf : List SNode → List Text
  | [] => []
  | .link t :: ks => t :: linksOf ks
  | .own .. :: ks => linksOf ks

/-- No parameter of the default type is called as the note, in the techniques where notes are looked for, or as something that scene nodes keep in their extra tree; and there is no type for instances. -/
def NoSceneParams (e : FExtra.Extra) : Prop :=
  (∀ t ∈ e, t.name ≠ text "instances") ∧ ∀ t ∈ e, t.name = [] → ∀ x ∈ t.techs, ∀ c ∈ x.node.children,
    ((x.profile = text "MAYA" ∨ x.profile = text "MAX3D" ∨ x.profile = text "FCOLLADA") → c.name ≠ text "user_properties" ∧ c.name ≠ text "note") ∧
    c.name ≠ text "start_time" ∧ c.name ≠ text "end_time" ∧ c.name ≠ text "visibility" ∧ c.name ≠ text "layer" ∧ ⟨text "type", text "layer"⟩ ∉ c.attrs

/-- A scene node fit for a file. -/
structure GoodHead (ov : Ov) (rnd : ℚ → ℚ) (h : Head) : Prop where
  id : Plain h.ent.id
  name : FXml.ValidId false h.ent.name
  note : Plain h.ent.note
  asset : ∀ a, h.ent.asset = some a → GoodAsset ov rnd a
  extra : Saveable h.ent.extra
  params : NoSceneParams h.ent.extra
  sid : FXml.ValidId false h.sid
  trans : ∀ t ∈ h.trans, GoodTrans rnd t.1 ∧ GoodSid t.2
  sids : ((h.trans.map (·.2)).filter (· ≠ [])).Nodup
  other : h.sid ≠ [] → h.sid ∉ h.trans.map (·.2)
  insts : ∀ k ∈ h.insts, k.name ∈ [text "instance_camera", text "instance_controller", text "instance_geometry", text "sprite", text "instance_light"]

/-- An id that can be part of an address. -/
def GoodLink (t : Text) : Prop := Plain t ∧ 63 ∉ t ∧ 92 ∉ t

mutual
/-- A tree fit for a file: all nodes are, no node is a child twice, and no node has the sub-id of a node above it (`above`; the sub-id of the root is not written). -/
inductive GoodTree (ov : Ov) (rnd : ℚ → ℚ) : Bool → List Text → SNode → Prop
  | own {root above h ks} : GoodHead ov rnd h → (root = false → h.sid ≠ [] → h.sid ∉ above) → (linksOf ks).Nodup → (∀ t ∈ linksOf ks, GoodLink t) →
      GoodTrees ov rnd ((if root then [] else h.sid) :: above) ks → GoodTree ov rnd root above (.own h ks)
/-- The same for the children written in full. -/
inductive GoodTrees (ov : Ov) (rnd : ℚ → ℚ) : List Text → List SNode → Prop
  | nil {above} : GoodTrees ov rnd above []
  | link {above t ks} : GoodTrees ov rnd above ks → GoodTrees ov rnd above (.link t :: ks)
  | own {above h js ks} : GoodTree ov rnd false above (.own h js) → GoodTrees ov rnd above ks → GoodTrees ov rnd above (.own h js :: ks)
end

/-- The extra tree of a reloaded node: with a note or a visibility the technique of the library is there. -/
def sceneExtraAfter (changed : Bool) : FExtra.Extra → FExtra.Extra
  | [] => FExtra.newExtra
  | t :: es => if changed then ⟨[], withTech t.techs⟩ :: es else if FExtra.hasContent (t :: es) then t :: es else FExtra.newExtra

/-- The node as it is read back: the numbers as they are shown, and the visibility 1 or 0. The sub-id, the type and the visibility of the root are lost. -/
def shownHead (ov : Ov) (rnd : ℚ → ℚ) (len : V3 → ℚ) (now : DateTime) (root : Bool) (h : Head) : Head where
  ent :=
    { id := h.ent.id
      name := nameAfter h.ent.id h.ent.name
      note := h.ent.note
      asset := h.ent.asset.map (assetAfter ov rnd now)
      extra := sceneExtraAfter (decide (h.ent.note ≠ []) || (!root && decide (h.visibility ≤ 1 / 2))) h.ent.extra }
  sid := if root then [] else h.sid
  joint := !root && h.joint
  visibility := if root || decide (h.visibility ≥ 1 / 2) then 1 else 0
  trans := h.trans.map fun t => (shownTrans rnd len t.1, t.2)
  insts := h.insts

mutual
/-- The tree as it is read back: the links come first, and only those to nodes whose element starts before (`before`) are there, unless they are above (`path`). -/
def after (ov : Ov) (rnd : ℚ → ℚ) (len : V3 → ℚ) (now : DateTime) (root : Bool) (path before : List Text) : SNode → SNode
  | .link t => .link t
  | .own h ks => .own (shownHead ov rnd len now root h)
      (((linksOf ks).filter fun t => decide (t ∈ before ∧ t ≠ h.ent.id ∧ t ∉ path)).map .link ++ afterAll ov rnd len now (h.ent.id :: path) (h.ent.id :: before) ks)
/-- The children written in full. -/
def afterAll (ov : Ov) (rnd : ℚ → ℚ) (len : V3 → ℚ) (now : DateTime) (path before : List Text) : List SNode → List SNode
  | [] => []
  | .link _ :: ks => afterAll ov rnd len now path before ks
  | .own h js :: ks => after ov rnd len now false path before (.own h js) :: afterAll ov rnd len now path ((SNode.own h js).ids.reverse ++ before) ks
end

mutual
/-- All links lead to nodes whose element starts before that of the node with the link, and that are not above it. -/
def LinksBack (path before : List Text) : SNode → Prop
  | .link _ => True
  | .own h ks => (∀ t ∈ linksOf ks, t ∈ before ∧ t ≠ h.ent.id ∧ t ∉ path) ∧ LinksBackAll (h.ent.id :: path) (h.ent.id :: before) ks
/-- The same for the children written in full. -/
def LinksBackAll (path before : List Text) : List SNode → Prop
  | [] => True
  | k :: ks => LinksBack path before k ∧ LinksBackAll path (k.ids.reverse ++ before) ks
end

mutual
/-- The tree with each node as it is read back, and the links before the other children. -/
def linksFirst (ov : Ov) (rnd : ℚ → ℚ) (len : V3 → ℚ) (now : DateTime) (root : Bool) : SNode → SNode
  | .link t => .link t
  | .own h ks => .own (shownHead ov rnd len now root h) ((linksOf ks).map .link ++ linksFirstAll ov rnd len now ks)
/-- The children written in full. -/
def linksFirstAll (ov : Ov) (rnd : ℚ → ℚ) (len : V3 → ℚ) (now : DateTime) : List SNode → List SNode
  | [] => []
  | .link _ :: ks => linksFirstAll ov rnd len now ks
  | .own h js :: ks => linksFirst ov rnd len now false (.own h js) :: linksFirstAll ov rnd len now ks
end

end Verif.FArc
