import Verif.NodeCloneAux
import Verif.NodeCloneSpec
import Verif.XformProps

/-! # C88: clones of scene nodes -/

namespace Verif.FXform

open Verif.Geo

/-- C88: cloning a node with its children ends, in every scene graph a program can build; the clone has a node at each place where the original has one, and
no others, with the same flags, the same types and values of transforms in the same order, and thus the same matrix. -/
theorem clone_node {w : FScene.World} (h : FScene.Reach w) (info : Nat → Info) {x : Nat} (hx : (w.nodes x).isSome) :
    ∃ t, (∃ N, ∀ n ≥ N, cloneNode w info true n x = some t) ∧ Matches w info x t := by
  obtain ⟨rk, hi, -⟩ := FScene.reach_good h
  suffices H : ∀ k, ∃ g : Nat → Tree, ∀ x, (w.nodes x).isSome → rk x ≤ k →
      (∀ n ≥ k + 1, cloneNode w info true n x = some (g x)) ∧ Matches w info x (g x) by
    obtain ⟨g, hg⟩ := H (rk x)
    obtain ⟨h1, h2⟩ := hg x hx le_rfl
    exact ⟨g x, ⟨_, h1⟩, h2⟩
  intro k
  induction k with
  | zero =>
    refine ⟨fun x => .node ⟨(info x).joint, (info x).visibility, cloneTransforms (info x).transforms []⟩ [], fun x hx hk => ?_⟩
    obtain ⟨a, ha⟩ := Option.isSome_iff_exists.mp hx
    have hc : a.children = [] := by
      rw [List.eq_nil_iff_forall_not_mem]
      intro y hy
      have := hi.rank x y ⟨a, ha, hy⟩
      omega
    refine ⟨fun n hn => ?_, fun path => ?_⟩
    · obtain ⟨n, rfl⟩ := Nat.exists_eq_succ_of_ne_zero (by omega : n ≠ 0)
      simp [cloneNode, ha, hc, collect]
    · cases path with
      | nil =>
        refine ⟨fun y hy => ?_, fun hn => by simp [follow] at hn⟩
        obtain rfl := Option.some.inj hy
        have hct := clone_transforms_partial (info x).transforms []
        exact ⟨a, _, ha, rfl, by simp [Tree.children, hc], rfl, rfl, by simpa [Tree.info] using hct.1, hct.2.2⟩
      | cons i path => simp [follow, ha, hc, Tree.at, Tree.children]
  | succ k ih =>
    obtain ⟨g, hg⟩ := ih
    refine ⟨fun x => .node ⟨(info x).joint, (info x).visibility, cloneTransforms (info x).transforms []⟩
      (((w.nodes x).map (·.children)).getD [] |>.map g), fun x hx hk => ?_⟩
    obtain ⟨a, ha⟩ := Option.isSome_iff_exists.mp hx
    have hc : ∀ y ∈ a.children, (w.nodes y).isSome ∧ rk y ≤ k := fun y hy => by
      have := hi.rank x y ⟨a, ha, hy⟩
      exact ⟨hi.alive x y ⟨a, ha, hy⟩, by omega⟩
    refine ⟨fun n hn => ?_, fun path => ?_⟩
    · obtain ⟨n, rfl⟩ := Nat.exists_eq_succ_of_ne_zero (by omega : n ≠ 0)
      have := collect_map (f := cloneNode w info true n) (g := g) (l := a.children) fun y hy => (hg y (hc y hy).1 (hc y hy).2).1 n (by omega)
      simp [cloneNode, ha, this]
    · cases path with
      | nil =>
        refine ⟨fun y hy => ?_, fun hn => by simp [follow] at hn⟩
        obtain rfl := Option.some.inj hy
        have hct := clone_transforms_partial (info x).transforms []
        exact ⟨a, _, ha, rfl, by simp [Tree.children, ha], rfl, rfl, by simpa [Tree.info] using hct.1, hct.2.2⟩
      | cons i path =>
        cases hi : a.children[i]? with
        | none => simp [follow, ha, hi, Tree.at, Tree.children]
        | some y =>
          have hy := hc y (List.mem_of_getElem? hi)
          have := (hg y hy.1 hy.2).2 path
          simpa [follow, ha, hi, Tree.at, Tree.children] using this

/-- C88: without its children, the clone is one node with the flags and the transforms. -/
theorem clone_alone {w : FScene.World} (info : Nat → Info) {x : Nat} (hx : (w.nodes x).isSome) (n : Nat) :
    ∃ t, cloneNode w info false (n + 1) x = some t ∧ t.children = [] ∧ t.info.joint = (info x).joint ∧ t.info.visibility = (info x).visibility ∧
      t.info.transforms.map (·.value) = (info x).transforms.map (·.value) := by
  obtain ⟨a, ha⟩ := Option.isSome_iff_exists.mp hx
  exact ⟨_, by simp [cloneNode, ha]; rfl, rfl, rfl, rfl, by simpa [Tree.info] using (clone_transforms_partial (info x).transforms []).1⟩

/-- The sample of C29: node 3 is a child of nodes 1 and 2, and node 2 is a child of node 1. -/
example : ∃ w, FScene.Reach w ∧ (w.nodes 1).isSome ∧ follow w [0, 0] 1 = some 3 ∧ follow w [1] 1 = some 3 := by
  obtain ⟨w, h, h1, h2, h3⟩ := FScene.sample_reach
  exact ⟨w, h, by simp [h1], by simp [follow, h1, h2], by simp [follow, h1]⟩

/-- C88, violated: nodes that are shared in the original are not shared in the clone: three nodes become four. -/
theorem clone_shared_violated : ∃ w, FScene.Reach w ∧ (∀ path y, follow w path 1 = some y → y ∈ [1, 2, 3]) ∧
    ∀ info, ∃ t, (∃ N, ∀ n ≥ N, cloneNode w info true n 1 = some t) ∧ t.size = 4 := by
  obtain ⟨w, h, h1, h2, h3⟩ := FScene.sample_reach
  refine ⟨w, h, ?_, fun info => ?_⟩
  · have : ∀ path x y, x ∈ [1, 2, 3] → follow w path x = some y → y ∈ [1, 2, 3] := by
      intro path
      induction path with
      | nil => rintro x y hx ⟨⟩; exact hx
      | cons i path ih =>
        intro x y hx hy
        simp only [follow, Option.bind_eq_some_iff] at hy
        obtain ⟨a, ha, z, hz, hy⟩ := hy
        refine ih z y ?_ hy
        have hz := List.mem_of_getElem? hz
        fin_cases hx
        · rw [h1] at ha; obtain rfl := Option.some.inj ha; fin_cases hz <;> simp
        · rw [h2] at ha; obtain rfl := Option.some.inj ha; fin_cases hz; simp
        · rw [h3] at ha; obtain rfl := Option.some.inj ha; simp at hz
    exact fun path y hy => this path 1 y (by simp) hy
  · let i : Nat → Info := fun x => ⟨(info x).joint, (info x).visibility, cloneTransforms (info x).transforms []⟩
    refine ⟨.node (i 1) [.node (i 2) [.node (i 3) []], .node (i 3) []], ⟨3, fun n hn => ?_⟩, ?_⟩
    · obtain ⟨n, rfl⟩ : ∃ m, n = m + 3 := ⟨n - 3, by omega⟩
      simp only [cloneNode, h1, h2, h3, Option.bind_some, if_true, List.map_cons, List.map_nil, collect, Option.map_some]
      rfl
    · simp [Tree.size]

end Verif.FXform
