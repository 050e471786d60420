import Verif.InstAux
import Verif.InstLemmas
import Verif.SceneProps

/-!
# Properties of instances in the scene graph (C109, C110)
-/

namespace Verif.FInst

open Verif.FScene Verif.FStr

/-! ## A scene graph: 1 has the child 2, which has the child 3 -/

/-! ## C109 -/

open scoped Classical in
/-- **C109**: `HasForParent` ends and says whether the given node is the parent of the instance or one of its ancestors. -/
theorem has_for_parent (w : World) (h : Reach w) (parent node : Option Nat) (hp : ∀ p, parent = some p → (w.nodes p).isSome) :
    ∃ N, ∀ n ≥ N, hasForParent w n parent node = some (decide (∃ p x, parent = some p ∧ node = some x ∧ Desc w x p)) := by
  obtain ⟨rk, hi, L, hL⟩ := reach_good h
  obtain ⟨B, hB⟩ := exists_bound rk L
  cases node with
  | none => exact ⟨0, fun n _ => by simp [hasForParent]⟩
  | some x =>
    cases parent with
    | none => exact ⟨0, fun n _ => by simp [hasForParent]⟩
    | some p =>
      obtain ⟨N, hN⟩ := climb_ok hi x B (fun p hp => hB p (hL p hp)) (B - rk p + 1) [p] (by
        intro q hq
        rw [List.mem_singleton] at hq
        subst hq
        exact ⟨hp q rfl, by omega⟩)
      refine ⟨N, fun n hn => ?_⟩
      show climb w x n [p] = _
      rw [hN n hn]
      simp

example : ∃ w, Reach w ∧ ∃ N, ∀ n ≥ N, hasForParent w n (some 3) (some 1) = some true := by
  obtain ⟨w, hr, h1, h2, h3⟩ := chain_reach
  obtain ⟨N, hN⟩ := has_for_parent w hr (some 3) (some 1) (by rintro p ⟨⟩; simp [h3])
  refine ⟨w, hr, N, fun n hn => ?_⟩
  rw [hN n hn]
  have : Desc w 1 3 := .head (b := 2) ⟨_, h1, by simp⟩ (.single ⟨_, h2, by simp⟩)
  simp [this]

/-- **C109**: the search for a scene node ends; it finds a node of the visual scenes with the identifier if there is one. -/
theorem find_scene_node (w : World) (h : Reach w) (ids : Nat → List Ch) (scenes : List Nat) (hs : ∀ x ∈ scenes, (w.nodes x).isSome) (id : List Ch) :
    ∃ r, (∃ N, ∀ n ≥ N, findFirst w ids id n scenes = some r) ∧ (∀ y, r = some y → InScenes w scenes y ∧ ids y = id) ∧
      (r = none → ∀ y, InScenes w scenes y → ids y ≠ id) := by
  obtain ⟨r, N, hN, h1, h2⟩ := findFirst_good (reach_good h) ids id scenes hs
  exact ⟨r, ⟨N, hN⟩, h1, fun hr y ⟨s, hs, hd⟩ => h2 hr s hs y hd⟩

example : ∃ w, Reach w ∧ ∃ N, ∀ n ≥ N, findFirst w (fun x => [(x : Int)]) [3] n [1] = some (some 3) := by
  obtain ⟨w, hr, h1, h2, h3⟩ := chain_reach
  obtain ⟨r, ⟨N, hN⟩, hf, hn⟩ := find_scene_node w hr (fun x => [(x : Int)]) [1] (by simp [h1]) [3]
  have hd : InScenes w [1] 3 := ⟨1, by simp, .head (b := 2) ⟨_, h1, by simp⟩ (.single ⟨_, h2, by simp⟩)⟩
  cases r with
  | none => exact absurd rfl (hn rfl 3 hd)
  | some y =>
    have : y = 3 := by
      have := (hf y rfl).2
      simp only [List.cons.injEq, and_true] at this
      exact_mod_cast (show (y : Int) = 3 from this)
    subst this
    exact ⟨w, hr, N, hN⟩

/-! ## C110 -/

/-- **C110**: `AddJoint` adds a node at the end and refuses the null pointer; the index of a joint is the first place where it is, or the greatest number. -/
theorem joint_list (i : Inst) (j : Nat) :
    addJoint i none = (false, i) ∧ (addJoint i (some j)).1 = true ∧ (addJoint i (some j)).2.joints = i.joints ++ [j] ∧
    (j ∉ i.joints → findJointIndex j 0 i.joints = 2 ^ 64 - 1) ∧
    (j ∈ i.joints → i.joints[findJointIndex j 0 i.joints]? = some j ∧ ∀ k < findJointIndex j 0 i.joints, i.joints[k]? ≠ some j) := by
  refine ⟨rfl, rfl, rfl, ?_, ?_⟩
  · intro h
    rw [findJointIndex_eq, if_neg h]
    rfl
  · intro h
    rw [findJointIndex_eq, if_pos h, Nat.zero_add]
    refine ⟨by simp [h], ?_⟩
    intro k hk e
    have hk' : k < i.joints.length := by have := List.idxOf_lt_length_of_mem h; omega
    rw [List.getElem?_eq_getElem hk'] at e
    have := List.not_of_lt_findIdx (p := (· == j)) (xs := i.joints) (i := k) hk
    simp [Option.some.inj e] at this

example : findJointIndex 7 0 [5, 7, 7] = 1 := by decide

open scoped Classical in
/-- **C110**: `CalculateRootIds` gives the identifiers of the joints without a joint among their parents, in order; the joints stay. -/
theorem root_ids (ov : FConv.Ov) (w : World) (ids : Nat → List Ch) (i : Inst) (hj : ∀ j ∈ i.joints, (w.nodes j).isSome ∧ 92 ∉ ids j) :
    ∃ i', calculateRootIds ov w ids i = some i' ∧ i'.joints = i.joints ∧
      i'.roots.map FUri.Uri.fragment = (i.joints.filter fun j => RootJoint w i.joints j).map ids := by
  obtain ⟨r, hr, he⟩ := rootIds_eq ov w ids i.joints i.joints hj
  refine ⟨{ i with roots := r }, by simp [calculateRootIds, hr], rfl, ?_⟩
  rw [he]
  congr 1
  refine List.filter_congr fun j hj => ?_
  simp [RootJoint, hj]

example (ov : FConv.Ov) : ∃ w i', calculateRootIds ov w (fun x => [(x : Int)]) ⟨[3, 2], []⟩ = some i' ∧ i'.roots.map FUri.Uri.fragment = [[2]] := by
  classical
  obtain ⟨w, hr, h1, h2, h3⟩ := chain_reach
  obtain ⟨i', h, _, he⟩ := root_ids ov w (fun x => [(x : Int)]) ⟨[3, 2], []⟩ (by simp [h2, h3])
  refine ⟨w, i', h, ?_⟩
  rw [he]
  have a : ¬ RootJoint w [3, 2] 3 := by
    rintro ⟨_, hp⟩
    exact hp 2 ⟨_, h3, by simp⟩ (by simp)
  have b : RootJoint w [3, 2] 2 := by
    refine ⟨by simp, ?_⟩
    rintro p ⟨x, hx, hp⟩
    rw [h2] at hx
    cases hx
    simp at hp
    simp [hp]
  simp [a, b]

/-- **C110**: every joint is a root joint or below one. -/
theorem roots_cover (w : World) (h : Reach w) (joints : List Nat) (j : Nat) (hm : j ∈ joints) :
    ∃ r, RootJoint w joints r ∧ Desc w r j := by
  obtain ⟨rk, hi, L, hL⟩ := reach_good h
  obtain ⟨B, hB⟩ := exists_bound rk L
  suffices ∀ k j, j ∈ joints → B - rk j ≤ k → ∃ r, RootJoint w joints r ∧ Desc w r j from this _ j hm (Nat.le_refl _)
  intro k
  induction k with
  | zero =>
    intro j hm hk
    refine ⟨j, ⟨hm, fun p hp _ => ?_⟩, .refl⟩
    have hc := (hi.mirror p j (by simp)).mpr hp
    have h1 := hi.rank p j hc
    have h2 := hB p (hL p (by obtain ⟨b, hb, _⟩ := hc; simp [hb]))
    omega
  | succ k ih =>
    intro j hm hk
    by_cases hr : ∀ p, Parent w p j → p ∉ joints
    · exact ⟨j, ⟨hm, hr⟩, .refl⟩
    · push Not at hr
      obtain ⟨p, hp, hpj⟩ := hr
      have hc := (hi.mirror p j (by simp)).mpr hp
      have h1 := hi.rank p j hc
      have h2 := hB p (hL p (by obtain ⟨b, hb, _⟩ := hc; simp [hb]))
      obtain ⟨r, hr, hd⟩ := ih p hpj (by omega)
      exact ⟨r, hr, hd.tail hc⟩

example : ∃ w, Reach w ∧ ∃ r, RootJoint w [3, 2] r ∧ Desc w r 3 := by
  obtain ⟨w, hr, h1, h2, h3⟩ := chain_reach
  exact ⟨w, hr, roots_cover w hr [3, 2] 3 (by simp)⟩

open scoped Classical in
/-- **C110**: if the joints are in the visual scenes and identifiers are unique there, the nodes found through the root identifiers are the root joints, in order
and without a warning. -/
theorem skeleton_round_trip_partial (ov : FConv.Ov) (w : World) (h : Reach w) (ids : Nat → List Ch) (scenes : List Nat) (visual : Option Nat) (i : Inst)
    (hs : ∀ x ∈ scenes, (w.nodes x).isSome) (hu : ∀ x y, InScenes w scenes x → InScenes w scenes y → ids x = ids y → x = y)
    (hj : ∀ j ∈ i.joints, (w.nodes j).isSome ∧ 92 ∉ ids j ∧ InScenes w scenes j) (hne : i.joints ≠ []) :
    ∃ i', calculateRootIds ov w ids i = some i' ∧
      ∃ N, ∀ n ≥ N, findSkeletonNodes w ids scenes visual n i' = some ((i.joints.filter fun j => RootJoint w i.joints j).map some, 0) := by
  obtain ⟨i', h1, _, h3⟩ := root_ids ov w ids i fun j hj' => ⟨(hj j hj').1, (hj j hj').2.1⟩
  refine ⟨i', h1, ?_⟩
  obtain ⟨N, hN⟩ := skeletonLoop_ok (reach_good h) ids scenes hs hu i'.roots _ h3 fun x hx => (hj x (List.mem_filter.mp hx).1).2.2
  refine ⟨N, fun n hn => ?_⟩
  unfold findSkeletonNodes
  rw [hN n hn, Option.map_some]
  have : (i.joints.filter fun j => RootJoint w i.joints j) ≠ [] := by
    obtain ⟨j, hjm⟩ := List.exists_mem_of_ne_nil _ hne
    obtain ⟨r, hr, _⟩ := roots_cover w h i.joints j hjm
    exact List.ne_nil_of_mem (List.mem_filter.mpr ⟨hr.1, by simpa using hr⟩)
  rw [if_neg this]

example (ov : FConv.Ov) : ∃ w i' N, ∀ n ≥ N, findSkeletonNodes w (fun x => [(x : Int)]) [1] none n i' = some ([some 1], 0) := by
  classical
  obtain ⟨w, hr, h1, h2, h3⟩ := chain_reach
  obtain ⟨i', h, N, hN⟩ := skeleton_round_trip_partial ov w hr (fun x => [(x : Int)]) [1] none ⟨[1], []⟩ (by simp [h1])
    (by intro x y _ _ e; simp only [List.cons.injEq, and_true] at e; exact_mod_cast (show (x : Int) = y from e))
    (by intro j hj; rw [List.mem_singleton] at hj; subst hj; exact ⟨by simp [h1], by simp, 1, by simp, .refl⟩) (by simp)
  refine ⟨w, i', N, fun n hn => ?_⟩
  rw [hN n hn]
  have b : RootJoint w [1] 1 := by
    refine ⟨by simp, ?_⟩
    rintro p ⟨x, hx, hp⟩
    rw [h1] at hx
    cases hx
    simp at hp
  simp [b]

/-- **C110**: whatever the roots are, there is a node for each root that is the identifier of a node of the visual scenes, in order, and a warning for each other root. -/
theorem skeleton_found (w : World) (h : Reach w) (ids : Nat → List Ch) (scenes : List Nat) (visual : Option Nat) (i : Inst) (hs : ∀ x ∈ scenes, (w.nodes x).isSome) :
    ∃ (l : List (Option Nat)) (N : Nat), List.Forall₂ (fun (u : FUri.Uri) r => match r with
        | some x => InScenes w scenes x ∧ ids x = u.fragment
        | none => ∀ x, InScenes w scenes x → ids x ≠ u.fragment) i.roots l ∧
      ∀ n ≥ N, findSkeletonNodes w ids scenes visual n i =
        some (if l.filter Option.isSome = [] then [visual] else l.filter Option.isSome, l.countP Option.isNone) := by
  suffices ∀ us : List FUri.Uri, ∃ (l : List (Option Nat)) (N : Nat), List.Forall₂ (fun (u : FUri.Uri) r => match r with
        | some x => InScenes w scenes x ∧ ids x = u.fragment
        | none => ∀ x, InScenes w scenes x → ids x ≠ u.fragment) us l ∧
      ∀ n ≥ N, skeletonLoop w ids scenes n us = some (l.filterMap id, l.countP Option.isNone) by
    obtain ⟨l, N, h1, h2⟩ := this i.roots
    refine ⟨l, N, h1, fun n hn => ?_⟩
    have e : (l.filterMap id).map some = l.filter Option.isSome := by
      clear h1 h2
      induction l with
      | nil => rfl
      | cons a l ih =>
        cases a with
        | none => exact ih
        | some a => exact congrArg (some a :: ·) ih
    rw [findSkeletonNodes, h2 n hn, Option.map_some, ← e]
    cases l.filterMap id <;> simp
  intro us
  induction us with
  | nil => exact ⟨[], 0, .nil, fun _ _ => rfl⟩
  | cons u us ih =>
    obtain ⟨l, N, h1, h2⟩ := ih
    obtain ⟨r, M, hM, hf⟩ := findFirst_good (reach_good h) ids u.fragment scenes hs
    refine ⟨r :: l, N + M, .cons ?_ h1, fun n hn => ?_⟩
    · cases r with
      | none => exact fun x ⟨s, hs, hd⟩ => hf.2 rfl s hs x hd
      | some x => exact hf.1 x rfl
    · rw [skeletonLoop, hM n (by omega), Option.bind_some, h2 n (by omega), Option.map_some]
      cases r <;> simp

example : ∃ w, Reach w ∧ ∀ x ∈ [1], (w.nodes x).isSome := by
  obtain ⟨w, hr, h1, h2, h3⟩ := chain_reach
  exact ⟨w, hr, by simp [h1]⟩

/-- **C110** fails for an instance without roots in a document without an instanced visual scene: the result contains the null pointer. -/
theorem skeleton_null_violated (w : World) (ids : Nat → List Ch) (scenes : List Nat) (n : Nat) :
    findSkeletonNodes w ids scenes none n ⟨[], []⟩ = some ([none], 0) := rfl

/-- **C110** fails if a node that is not a joint lies between two joints: the lower one is taken for a root as well. -/
theorem roots_minimal_violated : ∃ w, Reach w ∧ RootJoint w [1, 3] 1 ∧ RootJoint w [1, 3] 3 ∧ Ancestor w 1 3 := by
  obtain ⟨w, hr, h1, h2, h3⟩ := chain_reach
  refine ⟨w, hr, ⟨by simp, ?_⟩, ⟨by simp, ?_⟩, .head (b := 2) ⟨_, h1, by simp⟩ (.single ⟨_, h2, by simp⟩)⟩
  · rintro p ⟨x, hx, hp⟩
    rw [h1] at hx
    cases hx
    simp at hp
  · rintro p ⟨x, hx, hp⟩
    rw [h3] at hx
    cases hx
    simp at hp
    simp [hp]

end Verif.FInst
