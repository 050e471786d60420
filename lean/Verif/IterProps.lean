import Verif.IterAux
import Verif.IterLemmas
import Verif.SceneProps

/-! # C30: the scene node iterator -/

namespace Verif.FIter

/-- **C30** (breadth first). The iterator is built in finitely many steps and lists the levels of the hierarchy one after the other, for pure
children and with instances, whatever the depth and the sharing. -/
theorem breadth_first (G : Graph) (p : Bool) (rk : Nat → Nat) (h : Ranked (kids G p) rk) (root d : Nat) (hd : rk root ≤ d) :
    ∃ N, ∀ n ≥ N, breadthFirst n G p root = some (levelOrder (kids G p) d root) := by
  rw [levelOrder_stable h root d hd]
  obtain ⟨c, hc⟩ := bfs_levels G p root (rk root + 1)
  refine ⟨c + 1, ?_⟩
  intro n hn
  obtain ⟨m, rfl⟩ : ∃ m, n = c + (m + 1) := ⟨n - c - 1, by omega⟩
  simp only [breadthFirst]
  rw [hc (m + 1), level_empty h root, List.append_nil]
  simp [bfsLoop, levelOrder]

example : ∃ N, ∀ n ≥ N, breadthFirst n sample false 0 = some [0, 1, 2, 5, 3, 4] :=
  breadth_first sample false sampleRank (sample_ranked false) 0 2 (by decide)

/-- **C30** (depth first, pure children). The iterator over pure children is built in finitely many steps and lists the hierarchy in post-order or
in pre-order as requested, whatever the depth. -/
theorem depth_first_pure (G : Graph) (post : Bool) (rk : Nat → Nat) (h : Ranked (kids G true) rk) (root d : Nat) (hd : rk root ≤ d) :
    ∃ N, ∀ n ≥ N, depthFirst n G post true root = some (if post then postOrder (kids G true) d root else preOrder (kids G true) d root) :=
  depth_first_any G post true rk h root d hd (Or.inr (Or.inl rfl)) (Or.inl rfl)

example : ∃ N, ∀ n ≥ N, depthFirst n sample false true 0 = some [0, 1, 3, 4, 2] :=
  depth_first_pure sample false sampleRank (sample_ranked true) 0 2 (by decide)

example : ∃ N, ∀ n ≥ N, depthFirst n sample true true 0 = some [3, 4, 1, 2, 0] :=
  depth_first_pure sample true sampleRank (sample_ranked true) 0 2 (by decide)

/-- **C30, partial** (depth first, with instances). The iterator lists the hierarchy in the requested order if no scene node is instanced or the
depth is at most seven, and, for the pre-order, instanced nodes have nothing below them. Missing: the other hierarchies, see
`preorder_violated` and `deep_violated`. -/
theorem depth_first_partial (G : Graph) (post : Bool) (rk : Nat → Nat) (h : Ranked (kids G false) rk) (root d : Nat) (hd : rk root ≤ d)
    (hleaf : post = false → ∀ x z, some z ∈ G.insts x → G.children z = [] ∧ G.insts z = [])
    (hroom : (∀ x z, some z ∉ G.insts x) ∨ rk root ≤ 7) :
    ∃ N, ∀ n ≥ N, depthFirst n G post false root = some (if post then postOrder (kids G false) d root else preOrder (kids G false) d root) := by
  refine depth_first_any G post false rk h root d hd ?_ (Or.inr hroom)
  cases post with
  | true => exact Or.inl rfl
  | false =>
    right; right
    intro x z hz
    obtain ⟨h1, h2⟩ := hleaf rfl x z hz
    simp [isLeaf, h1, h2]

example : ∃ N, ∀ n ≥ N, depthFirst n sample false false 0 = some [0, 1, 3, 4, 2, 5] :=
  depth_first_partial sample false sampleRank (sample_ranked false) 0 2 (by decide) (by
    intro _ x z hz
    simp only [sample] at hz
    split at hz
    · simp at hz; subst hz; simp [sample]
    · simp at hz) (Or.inr (by decide))

example : ∃ N, ∀ n ≥ N, depthFirst n sample true false 0 = some [3, 4, 1, 2, 5, 0] :=
  depth_first_partial sample true sampleRank (sample_ranked false) 0 2 (by decide) (by simp) (Or.inr (by decide))

/-- **C30** (what the orders list). Each of the three orders lists exactly the nodes of the hierarchy, as often as the others, and each of them once
when every node is below one node only. -/
theorem orders_list (k : Nat → List Nat) (rk : Nat → Nat) (h : Ranked k rk) (root d : Nat) (hd : rk root ≤ d) :
    (∀ z, z ∈ preOrder k d root ↔ Below k root z) ∧ (postOrder k d root).Perm (preOrder k d root) ∧
      (levelOrder k d root).Perm (preOrder k d root) ∧
      (Tree k → (preOrder k d root).Nodup ∧ (postOrder k d root).Nodup ∧ (levelOrder k d root).Nodup) := by
  refine ⟨fun z => mem_preOrder h d root z hd, post_perm_pre k d root, levelOrder_perm k d root, ?_⟩
  intro ht
  have := preOrder_nodup h ht d root hd
  exact ⟨this, (post_perm_pre k d root).nodup_iff.mpr this, (levelOrder_perm k d root).nodup_iff.mpr this⟩

example : ∀ z, z ∈ preOrder (kids sample false) 2 0 ↔ Below (kids sample false) 0 z :=
  (orders_list _ sampleRank (sample_ranked false) 0 2 (by decide)).1

/-- **C30** (scene graphs). For every scene graph a program can build and any instances, the iterator over pure children of any node ends, in each of
the three orders, and visits each node of the hierarchy of pure children exactly once, in that order. -/
theorem scene_traversal (w : FScene.World) (hw : FScene.Reach w) (insts : Nat → List (Option Nat)) (root : Nat) :
    ∃ D, ∀ d ≥ D, ∃ N, ∀ n ≥ N, 
      breadthFirst n (graphOf w insts) true root = some (levelOrder (kids (graphOf w insts) true) d root) ∧
      depthFirst n (graphOf w insts) true true root = some (postOrder (kids (graphOf w insts) true) d root) ∧
      depthFirst n (graphOf w insts) false true root = some (preOrder (kids (graphOf w insts) true) d root) ∧
      (levelOrder (kids (graphOf w insts) true) d root).Nodup ∧ (postOrder (kids (graphOf w insts) true) d root).Nodup ∧
      (preOrder (kids (graphOf w insts) true) d root).Nodup ∧
      ∀ z, (z ∈ levelOrder (kids (graphOf w insts) true) d root ↔ Below (kids (graphOf w insts) true) root z) ∧
        (z ∈ postOrder (kids (graphOf w insts) true) d root ↔ Below (kids (graphOf w insts) true) root z) ∧
        (z ∈ preOrder (kids (graphOf w insts) true) d root ↔ Below (kids (graphOf w insts) true) root z) := by
  obtain ⟨rk, hi, _⟩ := FScene.reach_good hw
  have hr : Ranked (kids (graphOf w insts) true) rk := fun x y hy => hi.rank x y (scene_pure_kids hy)
  have ht : Tree (kids (graphOf w insts) true) := by
    refine ⟨?_, ?_⟩
    · intro x
      simp only [kids, if_true]
      apply List.Nodup.filter
      simp only [graphOf]
      cases hx : w.nodes x with
      | none => exact List.nodup_nil
      | some a => exact (hi.nodup x a hx).2
    · intro x y z hx hy
      simp only [kids, if_true, List.mem_filter, decide_eq_true_eq] at hx hy
      have := hx.2.symm.trans hy.2
      simpa using this
  refine ⟨rk root, ?_⟩
  intro d hd
  obtain ⟨N1, h1⟩ := breadth_first _ true rk hr root d hd
  obtain ⟨N2, h2⟩ := depth_first_pure _ true rk hr root d hd
  obtain ⟨N3, h3⟩ := depth_first_pure _ false rk hr root d hd
  obtain ⟨o1, o2, o3, o4⟩ := orders_list _ rk hr root d hd
  obtain ⟨o5, o6, o7⟩ := o4 ht
  refine ⟨N1 + N2 + N3, ?_⟩
  intro n hn
  refine ⟨h1 n (by omega), h2 n (by omega), h3 n (by omega), o7, o6, o5, ?_⟩
  intro z
  exact ⟨(o3.mem_iff).trans (o1 z), (o2.mem_iff).trans (o1 z), o1 z⟩

example : ∃ w, FScene.Reach w ∧ kids (graphOf w fun _ => []) true 1 = [2, 3] ∧ kids (graphOf w fun _ => []) true 2 = [] := by
  obtain ⟨w, hw, h1, h2, h3⟩ := FScene.sample_reach
  refine ⟨w, hw, ?_, ?_⟩
  · simp [kids, graphOf, h1, h2, h3]
  · simp [kids, graphOf, h2, h3]

/-- **C30** (using the iterator). A loop that reads the node and advances until the iterator is done meets the nodes of its list, in order. -/
theorem visit_all (queue : List Nat) (n : Nat) (hn : queue.length ≤ n) : visit queue n 0 = queue := by
  have key : ∀ n i, queue.length ≤ i + n → visit queue n i = queue.drop i := by
    intro n
    induction n with
    | zero => intro i hi; rw [List.drop_eq_nil_of_le (by omega)]; rfl
    | succ n ih =>
      intro i hi
      simp only [visit, getNode]
      split
      · rw [List.drop_eq_nil_of_le (by omega)]
      · rename_i hlt
        have hlt : i < queue.length := by omega
        rw [ih (i + 1) (by omega), List.getElem?_eq_getElem hlt]
        exact List.getElem_cons_drop (h := hlt)
  simpa using key n 0 (by omega)

example : visit [4, 5, 6] 3 0 = [4, 5, 6] := visit_all _ 3 (by decide)

/-- Node 0 instances node 1, which has the child 2. -/
def instanced : Graph where
  children x := if x = 1 then [2] else []
  insts x := if x = 0 then [some 1] else []
  parent0 x := if x = 2 then some 1 else none

/-- **C30, violated** (pre-order). An instanced node that has children is left out of the pre-order, although its child is listed. -/
theorem preorder_violated : Below (kids instanced false) 0 1 ∧ ∃ N, ∀ n ≥ N, depthFirst n instanced false false 0 = some [0, 2] := by
  refine ⟨.single (by decide), 10, ?_⟩
  intro n hn
  obtain ⟨m, rfl⟩ : ∃ m, n = m + 10 := ⟨n - 10, by omega⟩
  rfl

/-- A chain of nodes 0 to 7, of which the last instances node 8, which has the child 9. -/
def deep : Graph where
  children x := if x < 7 then [x + 1] else if x = 8 then [9] else []
  insts x := if x = 7 then [some 8] else []
  parent0 x := if x = 0 then none else some (x - 1)

/-- **C30, violated** (depth first). The graph is acyclic, but the iterator uses an element of its processing queue after the queue has been
reallocated. -/
theorem deep_violated : (∃ rk, Ranked (kids deep false) rk) ∧ ∀ post n, depthFirst n deep post false 0 = none := by
  refine ⟨⟨fun x => 9 - x, ?_⟩, ?_⟩
  · intro x y hy
    simp only [kids, deep] at hy
    split at hy
    · simp at *
    · rcases Nat.lt_trichotomy x 7 with h | h | h
      · simp [h, Nat.ne_of_lt h] at hy
        show 9 - y < 9 - x
        omega
      · subst h
        simp at hy
        show 9 - y < 9 - 7
        omega
      · by_cases h8 : x = 8
        · subst h8
          simp at hy
          show 9 - y < 9 - 8
          omega
        · simp [h8, Nat.not_lt_of_gt h, Nat.ne_of_gt h] at hy
  · intro post n
    by_cases hn : n < 20
    · have : ∀ m < 20, depthFirst m deep true false 0 = none ∧ depthFirst m deep false false 0 = none := by decide +kernel
      cases post
      · exact (this n hn).2
      · exact (this n hn).1
    · obtain ⟨m, rfl⟩ : ∃ m, n = m + 20 := ⟨n - 20, by omega⟩
      cases post <;> rfl

/-- Two nodes that instance each other. -/
def mutualInst : Graph where
  children _ := []
  insts x := [some (1 - x)]
  parent0 _ := none

/-- **C30, violated** (termination). With instances, a traversal of two nodes that instance each other never ends. -/
theorem cycle_violated : ∀ n, breadthFirst n mutualInst false 0 = none := by
  intro n
  have key : ∀ n queue index, index < queue.length → bfsLoop mutualInst false n queue index = none := by
    intro n
    induction n with
    | zero => intros; rfl
    | succ n ih =>
      intro queue index hi
      simp only [bfsLoop, List.getElem?_eq_getElem hi]
      apply ih
      simp [bfsNext, mutualInst]
      omega
  exact key n [0] 0 (by decide)

end Verif.FIter
