import Verif.SceneAux
import Verif.SceneOps

/-!
# Properties of the scene graph

`Reach w` (SceneSpec.lean) says that a program that creates nodes, adds and removes children and releases nodes has got to the scene graph `w`.
-/

namespace Verif.FScene

/-- Node 1 with children 2 and 3, node 2 with child 3 and node 3 with child 4. -/
def sampleOps : List Op :=
  [.create 1, .create 2, .create 3, .create 4, .add 1 (some 2), .add 1 (some 3), .add 2 (some 3), .add 3 (some 4), .add 4 (some 1), .add 2 (some 3)]

/-- The outcome of a list of operations. -/
def runAll (n : Nat) (w : World) : List Op → Option World
  | [] => some w
  | op :: ops => (run n w op).bind fun w => runAll n w ops

/-- The sample graph; the last two additions, of the ancestor 1 and of the child 3, were refused. -/
example : ((runAll 20 ⟨fun _ => none, []⟩ sampleOps).map fun w => [1, 2, 3, 4].map w.nodes) =
    some [some ⟨[], [2, 3]⟩, some ⟨[1], [3]⟩, some ⟨[1, 2], [4]⟩, some ⟨[3], []⟩] := by decide +kernel

/-- **C29** (shape). In every reachable scene graph no node is its own ancestor, the lists of parents and children mirror each other, they list live
nodes only, and each node once. -/
theorem scene_shape (w : World) (h : Reach w) :
    (∀ x, ¬ Ancestor w x x) ∧ (∀ x y, Child w x y ↔ Parent w x y) ∧ (∀ x y, Child w x y → (w.nodes x).isSome ∧ (w.nodes y).isSome) ∧
    (∀ x a, w.nodes x = some a → a.parents.Nodup ∧ a.children.Nodup) := by
  have hg := reach_good h
  obtain ⟨rk, hi, _⟩ := id hg
  refine ⟨?_, good_mirror hg, ?_, hi.nodup⟩
  · intro x hx
    obtain ⟨y, hy, hxy⟩ := Relation.TransGen.tail'_iff.mp hx
    have h1 := desc_rank hi hy
    have h2 := hi.rank y x hxy
    omega
  · intro x y hc
    exact ⟨by obtain ⟨a, ha, _⟩ := hc; simp [ha], hi.alive x y hc⟩

/-- **C29** (`AddChildNode`). On live nodes the call ends; it refuses exactly the NULL pointer, the node itself, an existing child and an ancestor, and
then changes nothing; otherwise the node is the last child, this node its last parent, and nothing else has changed. -/
theorem add_child (w : World) (h : Reach w) (x : Nat) (y : Option Nat) (hx : (w.nodes x).isSome) (hy : ∀ z, y = some z → (w.nodes z).isSome) :
    ∃ b w', (∃ N, ∀ n ≥ N, addChild n w x y = some (b, w')) ∧
      (b = false ↔ y = none ∨ ∃ z, y = some z ∧ (z = x ∨ Child w x z ∨ Ancestor w z x)) ∧ (b = false → w' = w) ∧
      (b = true → ∃ z, y = some z ∧ Linked w x z w') := by
  obtain ⟨b, w', h1, _, h2⟩ := add_ok (reach_good h) hx hy
  exact ⟨b, w', h1, h2⟩

/-- **C29** (`RemoveChildNode`). Removing a child removes the one link, in both lists, and nothing else. -/
theorem remove_child (w : World) (h : Reach w) (x y : Nat) (hx : (w.nodes x).isSome) (hy : (w.nodes y).isSome) :
    ∃ w', removeChild w x y = some w' ∧ (∀ p q, Child w' p q ↔ Child w p q ∧ ¬ (p = x ∧ q = y)) ∧
      (∀ p q, Parent w' p q ↔ Parent w p q ∧ ¬ (p = x ∧ q = y)) ∧ (∀ z, (w'.nodes z).isSome = (w.nodes z).isSome) ∧ w'.freed = w.freed ∧
      ∀ z a a', w.nodes z = some a → w'.nodes z = some a' → a'.parents.Sublist a.parents ∧ a'.children.Sublist a.children := by
  have hg := reach_good h
  obtain ⟨w', h1, h2⟩ := remove_ok hx hy
  refine ⟨w', h1, unlinked_child hg h2, unlinked_parent hg h2, ?_, h2.freed, ?_⟩
  · intro z
    rw [h2.nodes]
    simp
  · intro z a a' ha ha'
    rw [h2.nodes, ha, Option.map_some] at ha'
    obtain rfl := Option.some.inj ha'
    dsimp only
    constructor
    · split
      · exact List.erase_sublist
      · exact List.Sublist.refl _
    · split
      · exact List.erase_sublist
      · exact List.Sublist.refl _

/-- **C29** (histories). Every allowed call in a reachable scene graph ends without undefined behaviour. -/
theorem scene_safe (w : World) (h : Reach w) (op : Op) (hl : Legal w op) : ∃ w', Steps w op w' ∧ Reach w' := by
  obtain ⟨w', h1, _⟩ := step_ok (reach_good h) hl
  exact ⟨w', h1, .step h hl h1⟩

/-- **C71, partial.** Releasing a node ends, deletes the node and all of its descendants, each once, and nothing else, and no list mentions a deleted
node afterwards. Missing: descendants that other nodes share survive, see `release_violated`. -/
theorem release_partial (w : World) (h : Reach w) (x : Nat) (hx : (w.nodes x).isSome) :
    ∃ w', Steps w (.release x) w' ∧ Gone w (Desc w x) w' ∧ (∀ y z, Child w' y z ∨ Parent w' y z → ¬ Desc w x y ∧ ¬ Desc w x z) := by
  obtain ⟨w', h1, h2⟩ := release_top (reach_good h) hx
  refine ⟨w', h1, h2, ?_⟩
  rintro y z (hc | hc)
  · exact ((gone_child h2 y z).mp hc).2
  · exact ((gone_parent h2 y z).mp hc).2

/-- **C71, violated.** Node 3 is a child of 1 and of 2; releasing 2 deletes 3 although 1 still uses it. -/
theorem release_violated : ∃ w w', Reach w ∧ Child w 1 3 ∧ Child w 2 3 ∧ Steps w (.release 2) w' ∧ (w'.nodes 1).isSome ∧ 3 ∈ w'.freed := by
  obtain ⟨w, hw, h1, h2, h3⟩ := sample_reach
  have hc : Child w 2 3 := ⟨_, h2, by simp⟩
  obtain ⟨w', h4, h5, _⟩ := release_partial w hw 2 (by simp [h2])
  refine ⟨w, w', hw, ⟨_, h1, by simp⟩, hc, h4, ?_, ?_⟩
  · classical
    have hn : ¬ Desc w 2 1 := by
      intro hd
      rcases Relation.ReflTransGen.cases_tail hd with e | ⟨z, _, hz⟩
      · simp at e
      · obtain ⟨b, hb, hm⟩ := (good_mirror (reach_good hw) z 1).mp hz
        rw [h1] at hb
        obtain rfl := Option.some.inj hb
        simp at hm
    rw [h5.kept 1 hn, h1]
    rfl
  · obtain ⟨l, e1, _, e3⟩ := h5.freed
    rw [e1]
    exact List.mem_append_right _ ((e3 3).mpr (Relation.ReflTransGen.single hc))

end Verif.FScene
