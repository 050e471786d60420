import Verif.ArcSceneAux
import Verif.ArcTransProps

/-!
# Scene nodes are saved and loaded (C150)
-/

namespace Verif.FArc

open Verif.FEff (Text text)
open Verif.FConv (Ov DateTime Formats shown)

/-- **C150, partial.** What is written for a visual scene is read back as a success: the nodes written in full with their order, ids, names, notes, assets, extra trees, sub-ids, types, transforms and
instances, the visibility as 1 or 0, and the links to nodes whose elements start before, in front of the other children. The document knows all nodes afterwards. Missing: links to nodes further on are
lost, the order of the children changes, and the visibility 1/2 becomes 1 (`scene_violated`); animated values; what C143-C145 and C149 leave out. -/
theorem scene_roundtrip_partial (ov : Ov) (len : V3 → ℚ) {fmt rnd} (hf : Formats fmt rnd) (now now' : DateTime) (hn : GoodDate now) (s : SNode) (h : GoodTree ov rnd true [] s) (d : Doc) :
    ∃ n, writeSNode ov fmt now true s = some n ∧ n.name = text "visual_scene" ∧
      loadSNode ov len now' [] [] d n = some (after ov rnd len now true [] d.seen s, { d with seen := s.ids.reverse ++ d.seen }, true) :=
  tree_load ov len hf now now' hn s true [] [] d h

/-- **C150, partial.** If all links lead to nodes whose elements start before, none is lost. -/
theorem scene_links_partial (ov : Ov) (len : V3 → ℚ) {fmt rnd} (hf : Formats fmt rnd) (now now' : DateTime) (hn : GoodDate now) (s : SNode) (h : GoodTree ov rnd true [] s) (d : Doc)
    (hb : LinksBack [] d.seen s) :
    ∃ n, writeSNode ov fmt now true s = some n ∧
      loadSNode ov len now' [] [] d n = some (linksFirst ov rnd len now true s, { d with seen := s.ids.reverse ++ d.seen }, true) := by
  obtain ⟨n, h1, -, h2⟩ := tree_load ov len hf now now' hn s true [] [] d h
  exact ⟨n, h1, by rw [h2, after_back ov rnd len now s true [] d.seen hb]⟩

/-- A visual scene with two nodes, of which the second has a child, which is not visible, and a link to the first. -/
def sampleScene : SNode := .own (idHead (text "r") 1) [.own (idHead (text "a") 1) [], .own (idHead (text "b") 1) [.own (idHead (text "c") 0) [], .link (text "a")]]

example : GoodTree .wrap (fun _ => 3 / 2) true [] sampleScene ∧ LinksBack [] [] sampleScene := by
  have hv : ∀ t : Text, t.length = 1 → (∀ c ∈ t, FXml.startChar c = true) → FXml.ValidId false t := by
    intro t h1 h2
    match t, h1 with
    | [c], _ => exact ⟨h2 c (by simp), by simp, by simp⟩
  have hr := goodHead_id .wrap (fun _ => 3 / 2) (text "r") 1 (by decide +kernel) (hv _ (by decide +kernel) (by decide +kernel)) (by decide +kernel)
  have ha := goodHead_id .wrap (fun _ => 3 / 2) (text "a") 1 (by decide +kernel) (hv _ (by decide +kernel) (by decide +kernel)) (by decide +kernel)
  have hb := goodHead_id .wrap (fun _ => 3 / 2) (text "b") 1 (by decide +kernel) (hv _ (by decide +kernel) (by decide +kernel)) (by decide +kernel)
  have hc := goodHead_id .wrap (fun _ => 3 / 2) (text "c") 0 (by decide +kernel) (hv _ (by decide +kernel) (by decide +kernel)) (by decide +kernel)
  refine ⟨.own hr (by simp) (by simp [linksOf]) (by simp [linksOf]) (.own (.own ha ?_ (by simp [linksOf]) (by simp [linksOf]) .nil) (.own (.own hb ?_ (by simp [linksOf]) ?_
    (.own (.own hc ?_ (by simp [linksOf]) (by simp [linksOf]) .nil) (.link .nil))) .nil)), ?_⟩
  · intro _ _; decide +kernel
  · intro _ _; decide +kernel
  · intro t ht
    simp only [linksOf, List.mem_singleton] at ht
    subst ht
    exact ⟨hplain _ (by decide +kernel), by decide +kernel, by decide +kernel⟩
  · intro _ _; decide +kernel
  · refine ⟨by simp [linksOf], ?_⟩
    refine ⟨⟨by simp [linksOf], trivial⟩, ⟨?_, ⟨⟨by simp [linksOf], trivial⟩, trivial, trivial⟩⟩, trivial⟩
    intro t ht
    simp only [linksOf, List.mem_singleton] at ht
    subst ht
    decide +kernel

/-- The depth, id and visibility of a node; a link is marked by `true`. -/
structure Row where
  depth : Nat
  id : Text
  visibility : ℚ
  link : Bool
deriving DecidableEq

mutual
/-- The nodes in order. -/
def outline (n : Nat) : SNode → List Row
  | .link t => [⟨n, t, 0, true⟩]
  | .own h ks => ⟨n, h.ent.id, h.visibility, false⟩ :: outlines (n + 1) ks
/-- Those of a list. -/
def outlines (n : Nat) : List SNode → List Row
  | [] => []
  | k :: ks => outline n k ++ outlines n ks
end

/-- A visual scene after saving and loading, and whether that is a success. -/
def reloadedScene (s : SNode) : Option (List Row × Bool) :=
  (writeSNode .wrap fmt02 sampleDate true s).bind fun n => (loadSNode .wrap lenAxis sampleDate [] [] {} n).map fun r => (outline 0 r.1, r.2.2)

/-- A node with a skew that cannot be read. -/
def skewHead : Head := { ent := { id := text "r" }, trans := [(.skew 2 (0, 0, 0) (0, 2, 0), [])] }

/-- **C150, violated.** A link to a node further on is lost; a link comes before the other children; a node with visibility 1/2, which is not visible, is visible afterwards; a transform that cannot be
read makes the loading fail, but not if a child node follows. -/
theorem scene_violated :
    reloadedScene (.own { ent := { id := text "r" } } [.own { ent := { id := text "a" } } [.link (text "c")], .own { ent := { id := text "c" } } []]) =
      some ([⟨0, text "r", 1, false⟩, ⟨1, text "a", 1, false⟩, ⟨1, text "c", 1, false⟩], true) ∧
    reloadedScene (.own { ent := { id := text "r" } } [.own { ent := { id := text "a" } } [], .own { ent := { id := text "b" } } [.own { ent := { id := text "c" } } [], .link (text "a")]]) =
      some ([⟨0, text "r", 1, false⟩, ⟨1, text "a", 1, false⟩, ⟨1, text "b", 1, false⟩, ⟨2, text "a", 0, true⟩, ⟨2, text "c", 1, false⟩], true) ∧
    reloadedScene (.own { ent := { id := text "r" } } [.own { ent := { id := text "a" }, visibility := 1 / 2 } []]) = some ([⟨0, text "r", 1, false⟩, ⟨1, text "a", 1, false⟩], true) ∧
    reloadedScene (.own skewHead []) = some ([⟨0, text "r", 1, false⟩], false) ∧
    reloadedScene (.own skewHead [.own { ent := { id := text "a" } } []]) = some ([⟨0, text "r", 1, false⟩, ⟨1, text "a", 1, false⟩], true) := by
  refine ⟨?_, ?_, ?_, ?_, ?_⟩ <;> decide +kernel

end Verif.FArc
